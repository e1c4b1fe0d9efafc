import Verif.Props.LayoutMatrix
import Verif.Props.Generator
import Verif.Model.AssignMemory

/-! Property C79: copying a bitmap when memory runs out. -/

namespace Verif.Props
open Verif BitMatrix AssignMemory

theorem assignRows_cases (rhs : V2 UInt8) : ∀ (caps : List Nat) (b : Nat) (lhs : V2 UInt8),
    assignRows caps b lhs rhs = .ok () rhs ∨
    ∃ k, k ≤ lhs.length ∧ k ≤ rhs.length ∧ assignRows caps b lhs rhs = .throw .badAlloc (rhs.take k ++ lhs.drop k) := by
  induction rhs with
  | nil =>
    intro caps b lhs
    cases lhs with
    | nil => left; unfold assignRows; simp [needed]
    | cons l ls => left; unfold assignRows; rfl
  | cons r rs ih =>
    intro caps b lhs
    cases lhs with
    | nil =>
      unfold assignRows
      split
      · exact .inl rfl
      · exact .inr ⟨0, by simp, by simp, by simp⟩
    | cons l ls =>
      have step : ∀ b', (prepend r (assignRows caps.tail b' ls rs) = .ok () (r :: rs) ∨
          ∃ k, k ≤ (l :: ls).length ∧ k ≤ (r :: rs).length ∧
            prepend r (assignRows caps.tail b' ls rs) = .throw .badAlloc ((r :: rs).take k ++ (l :: ls).drop k)) := by
        intro b'
        rcases ih caps.tail b' ls with h | ⟨k, h1, h2, h⟩
        · left; rw [h]; rfl
        · refine .inr ⟨k + 1, by simpa using h1, by simpa using h2, ?_⟩
          rw [h]; rfl
      unfold assignRows
      split
      · exact step b
      · cases b with
        | zero => exact .inr ⟨0, by simp, by simp, by simp⟩
        | succ b => exact step b

theorem assignData_cases (room : Room) (lhs rhs : V2 UInt8) :
    assignData room lhs rhs = .ok () rhs ∨
    ∃ k, k ≤ lhs.length ∧ k ≤ rhs.length ∧ (room.outer < rhs.length → k = 0) ∧
      assignData room lhs rhs = .throw .badAlloc (rhs.take k ++ lhs.drop k) := by
  unfold assignData
  split
  · split
    · exact .inl rfl
    · exact .inr ⟨0, by simp, by simp, fun _ => rfl, by simp⟩
  · rename_i h
    rcases assignRows_cases rhs room.rows room.allocs lhs with e | ⟨k, h1, h2, e⟩
    · exact .inl e
    · exact .inr ⟨k, h1, h2, fun h' => absurd h' h, e⟩

theorem needed_le (d : V2 UInt8) : needed d ≤ d.length := List.length_filter_le _ _

theorem assignRows_enough (rhs : V2 UInt8) : ∀ (caps : List Nat) (b : Nat) (lhs : V2 UInt8), rhs.length ≤ b →
    assignRows caps b lhs rhs = .ok () rhs := by
  induction rhs with
  | nil =>
    intro caps b lhs _
    cases lhs with
    | nil => unfold assignRows; simp [needed]
    | cons l ls => unfold assignRows; rfl
  | cons r rs ih =>
    intro caps b lhs hb
    cases lhs with
    | nil =>
      unfold assignRows
      rw [if_pos (le_trans (needed_le _) hb)]
    | cons l ls =>
      unfold assignRows
      split
      · rw [ih _ _ _ (by simp at hb; omega)]; rfl
      · cases b with
        | zero => simp at hb
        | succ b => simp only; rw [ih _ _ _ (by simpa using hb)]; rfl

/-- **C79** `BitMatrix::operator=` (copy): with memory for as many blocks as there are rows and one more it returns; if it returns,
the object is the same as the source (C15). -/
theorem C79_assign_returns (room : Room) (lhs rhs : BitMatrix) :
    (rhs.bitmap.length + 1 ≤ room.allocs → ∃ m', AssignMemory.assign room rhs lhs = .ok () m') ∧
    (∀ m', AssignMemory.assign room rhs lhs = .ok () m' → m' = rhs) := by
  constructor
  · intro h
    have : assignData room lhs.bitmap rhs.bitmap = .ok () rhs.bitmap := by
      unfold assignData
      have := needed_le rhs.bitmap
      split
      · rw [if_pos (by omega)]
      · exact assignRows_enough _ _ _ _ (by omega)
    unfold AssignMemory.assign
    rw [this]
    exact ⟨_, rfl⟩
  · intro m' h
    unfold AssignMemory.assign at h
    rcases assignData_cases room lhs.bitmap rhs.bitmap with e | ⟨k, _, _, _, e⟩
    · rw [e] at h; cases h; rfl
    · rw [e] at h; cases h

theorem read_mixed {lhs rhs : V2 UInt8} {k : Nat} (hk : k ≤ rhs.length) (i j : Nat) :
    V2.read (rhs.take k ++ lhs.drop k) i j = if i < k then V2.read rhs i j else V2.read lhs i j := by
  unfold V2.read Res.idx
  rw [List.getElem?_append]
  have h1 : (rhs.take k).length = k := by simp [hk]
  rw [h1]
  by_cases hi : i < k
  · rw [if_pos hi, if_pos hi, List.getElem?_take, if_pos hi]
  · rw [if_neg hi, if_neg hi, List.getElem?_drop, show k + (i - k) = i by omega]

/-- **C79** If it throws, the exception is the allocation failure, the object still reports its old dimensions, and there is a row `k`
from which on it holds its old bits, while the rows before hold those of the source as far as its columns reach; reading a cell there beyond the bytes
of the source's rows is undefined behaviour. -/
theorem C79_assign_throws (room : Room) (lhs rhs : BitMatrix) (hl : Built lhs) (hr : Built rhs) (e : Exc) (m' : BitMatrix)
    (h : AssignMemory.assign room rhs lhs = .throw e m') :
    e = .badAlloc ∧ m'.isize = lhs.isize ∧ m'.jsize = lhs.jsize ∧
    ∃ k, k ≤ lhs.isize ∧ k ≤ rhs.isize ∧ (room.outer < rhs.isize → k = 0) ∧ ∀ i j, i < lhs.isize → j < lhs.jsize →
      (k ≤ i → BitMatrix.get m' i j = BitMatrix.get lhs i j) ∧
      (i < k → j < rhs.jsize → BitMatrix.get m' i j = BitMatrix.get rhs i j) ∧
      (i < k → (rhs.jsize + 7) / 8 * 8 ≤ j → BitMatrix.get m' i j = .ub) := by
  obtain ⟨wl, _, _⟩ := hl.inv
  obtain ⟨wr, _, _⟩ := hr.inv
  unfold AssignMemory.assign at h
  rcases assignData_cases room lhs.bitmap rhs.bitmap with e1 | ⟨k, k1, k2, k3, e1⟩
  · rw [e1] at h; cases h
  · rw [e1] at h
    cases h
    rw [wl.1] at k1
    rw [wr.1] at k2 k3
    refine ⟨rfl, rfl, rfl, k, k1, k2, k3, fun i j hi hj => ?_⟩
    have rd := fun jb => read_mixed (lhs := lhs.bitmap) (rhs := rhs.bitmap) (k := k) (by rw [wr.1]; exact k2) i jb
    have nl : ¬ (lhs.isize ≤ i ∨ lhs.jsize ≤ j) := by omega
    refine ⟨fun hk => ?_, fun hk hjr => ?_, fun hk hjr => ?_⟩
    · simp only [BitMatrix.get, if_neg nl, rd, if_neg (show ¬ i < k by omega)]
    · have nr : ¬ (rhs.isize ≤ i ∨ rhs.jsize ≤ j) := by omega
      simp only [BitMatrix.get, if_neg nl, if_neg nr, rd, if_pos hk]
    · simp only [BitMatrix.get, if_neg nl, rd, if_pos hk]
      rw [read_ub_col wr i (by rw [bytesPerRow_eq]; omega)]
      rfl

/-- **C79** If the outer vector has no room for the source's rows, a failure changes nothing. -/
theorem C79_strong (room : Room) (lhs rhs : BitMatrix) (hr : Built rhs) (h1 : room.outer < rhs.isize) (e : Exc) (m' : BitMatrix)
    (h : AssignMemory.assign room rhs lhs = .throw e m') : m' = lhs := by
  obtain ⟨wr, _, _⟩ := hr.inv
  unfold AssignMemory.assign at h
  rcases assignData_cases room lhs.bitmap rhs.bitmap with e1 | ⟨k, k1, k2, k3, e1⟩
  · rw [e1] at h; cases h
  · rw [e1] at h
    cases h
    have : k = 0 := k3 (by rw [wr.1]; exact h1)
    subst this
    simp

theorem assignRows_trap (rhs : V2 UInt8) (w : Nat) (hw : ∀ r ∈ rhs, r.length = w) (hpos : 0 < w) : ∀ (caps : List Nat) (lhs : V2 UInt8),
    lhs.length = caps.length → (∀ c ∈ caps, w ≤ c) → lhs.length < rhs.length →
    assignRows caps 0 lhs rhs = .throw .badAlloc (rhs.take lhs.length) := by
  induction rhs with
  | nil => intro caps lhs _ _ h; simp at h
  | cons r rs ih =>
    intro caps lhs hc hcap hlt
    have hr : r.length = w := hw r (by simp)
    cases lhs with
    | nil =>
      unfold assignRows
      have hne : r ≠ [] := by intro h0; rw [h0] at hr; simp at hr; omega
      have : ¬ needed (r :: rs) ≤ 0 := by
        unfold needed
        rw [List.filter_cons_of_pos (by simpa using hne)]
        simp
      rw [if_neg this]
      rfl
    | cons l ls =>
      cases caps with
      | nil => simp at hc
      | cons c cs =>
        have hc1 : r.length ≤ c := by rw [hr]; exact hcap c (by simp)
        unfold assignRows
        rw [List.headD_cons, if_pos hc1, List.tail_cons,
          ih (fun x hx => hw x (by simp [hx])) cs ls (by simpa using hc) (fun x hx => hcap x (by simp [hx])) (by simpa using hlt)]
        rfl

/-- **C79** There is a trap: if the object has fewer rows than the source and wider ones, the outer vector has room for the source's rows (from a
larger bitmap it held before) and the first further allocation fails, then the object still reports its old dimensions, and reading
the last cell of any of its rows is undefined behaviour. -/
theorem C79_trap (room : Room) (lhs rhs : BitMatrix) (hl : Built lhs) (hr : Built rhs) (h1 : lhs.isize < rhs.isize)
    (h2 : rhs.isize ≤ room.outer) (h3 : 0 < rhs.jsize) (h4 : (rhs.jsize + 7) / 8 < (lhs.jsize + 7) / 8)
    (hc : room.rows.length = lhs.isize) (hc2 : ∀ c ∈ room.rows, (lhs.jsize + 7) / 8 ≤ c) (h0 : room.allocs = 0) :
    ∃ m', AssignMemory.assign room rhs lhs = .throw .badAlloc m' ∧ m'.isize = lhs.isize ∧ m'.jsize = lhs.jsize ∧
      ∀ i, i < lhs.isize → BitMatrix.get m' i (lhs.jsize - 1) = .ub := by
  obtain ⟨wl, _, _⟩ := hl.inv
  obtain ⟨wr, _, _⟩ := hr.inv
  have hd : assignData room lhs.bitmap rhs.bitmap = .throw .badAlloc (rhs.bitmap.take lhs.isize) := by
    unfold assignData
    rw [if_neg (by rw [wr.1]; omega), h0]
    have := assignRows_trap rhs.bitmap (bytesPerRow rhs.jsize) wr.2 (by rw [bytesPerRow_eq]; omega) room.rows lhs.bitmap
      (by rw [wl.1, hc]) (fun c hcm => by have := hc2 c hcm; rw [bytesPerRow_eq]; omega) (by rw [wl.1, wr.1]; exact h1)
    rw [this, wl.1]
  refine ⟨{ lhs with bitmap := rhs.bitmap.take lhs.isize }, ?_, rfl, rfl, fun i hi => ?_⟩
  · unfold AssignMemory.assign
    rw [hd]
  · have nl : ¬ (lhs.isize ≤ i ∨ lhs.jsize ≤ lhs.jsize - 1) := by omega
    have rd : V2.read (rhs.bitmap.take lhs.isize) i ((lhs.jsize - 1) / 8) = V2.read rhs.bitmap i ((lhs.jsize - 1) / 8) := by
      unfold V2.read Res.idx
      rw [List.getElem?_take, if_pos hi]
    simp only [BitMatrix.get, if_neg nl, rd]
    rw [read_ub_col wr i (by rw [bytesPerRow_eq]; omega)]
    rfl

/-- **C79** `LayoutMatrix::operator=` (copy): if it throws, the old bits are gone, the object reports the dimensions of the source, and
every cell in range is undefined behaviour to read; `operator!` is true. -/
theorem C79_layout_assign (room : Room) (lhs rhs : BitMatrix) :
    (∀ m', assignL room rhs lhs = .ok () m' → m' = rhs) ∧
    (∀ e m', assignL room rhs lhs = .throw e m' → e = .badAlloc ∧ m'.isize = rhs.isize ∧ m'.jsize = rhs.jsize ∧ opNot m' = true ∧
      ∀ i j, i < rhs.isize → j < rhs.jsize → BitMatrix.get m' i j = .ub) := by
  constructor
  · intro m' h
    unfold assignL at h
    rcases assignData_cases room [] rhs.bitmap with e | ⟨k, _, _, _, e⟩
    · rw [e] at h; cases h; rfl
    · rw [e] at h; cases h
  · intro e m' h
    unfold assignL at h
    rcases assignData_cases room [] rhs.bitmap with e1 | ⟨k, k1, _, _, e1⟩
    · rw [e1] at h; cases h
    · have : k = 0 := by simpa using k1
      subst this
      rw [e1] at h
      cases h
      refine ⟨rfl, rfl, rfl, rfl, fun i j hi hj => ?_⟩
      have nr : ¬ (rhs.isize ≤ i ∨ rhs.jsize ≤ j) := by omega
      simp only [BitMatrix.get, if_neg nr]
      rfl

/-- **C79** Moving a bitmap into a new `LayoutMatrix`, or a `BitMatrix` into an existing one, copies it inside a `noexcept` function: for a bitmap
with cells it needs a block for the rows and one for each row, and one block less ends the program. -/
theorem C79_move_terminates (allocs : Nat) (rhs : BitMatrix) (hr : Built rhs) (h2 : 0 < rhs.isize) (h3 : 0 < rhs.jsize) (rows : List Nat) :
    (rhs.isize + 1 ≤ allocs → AssignMemory.moveNewL allocs rhs = some rhs ∧ AssignMemory.moveNewB allocs rhs = some { rhs with jsize := 0 } ∧
      AssignMemory.assignMoveB ⟨0, rows, allocs⟩ rhs = some (rhs, { rhs with bitmap := [] })) ∧
    (allocs < rhs.isize + 1 → AssignMemory.moveNewL allocs rhs = none ∧ AssignMemory.moveNewB allocs rhs = none ∧
      AssignMemory.assignMoveB ⟨0, rows, allocs⟩ rhs = none) := by
  obtain ⟨wr, _, _⟩ := hr.inv
  have hne : needed rhs.bitmap = rhs.isize := by
    unfold needed
    rw [List.filter_eq_self.2 (fun r hrm => by
      have := wr.2 r hrm
      have hp : 0 < bytesPerRow rhs.jsize := by rw [bytesPerRow_eq]; omega
      simp only [decide_eq_true_eq]
      intro h0
      rw [h0] at this
      simp at this
      omega), wr.1]
  have hpos : 0 < rhs.bitmap.length := by rw [wr.1]; exact h2
  constructor
  · intro h
    have e : ∀ rw, assignData ⟨0, rw, allocs⟩ [] rhs.bitmap = .ok () rhs.bitmap := by
      intro rw
      unfold assignData
      rw [if_pos hpos, hne, if_pos (show 1 + rhs.isize ≤ allocs by omega)]
    unfold AssignMemory.moveNewL AssignMemory.moveNewB AssignMemory.assignMoveB
    rw [e, e]
    exact ⟨rfl, rfl, rfl⟩
  · intro h
    have e : ∀ rw, assignData ⟨0, rw, allocs⟩ [] rhs.bitmap = .throw .badAlloc [] := by
      intro rw
      unfold assignData
      rw [if_pos hpos, hne, if_neg (show ¬ 1 + rhs.isize ≤ allocs by omega)]
    unfold AssignMemory.moveNewL AssignMemory.moveNewB AssignMemory.assignMoveB
    rw [e, e]
    exact ⟨rfl, rfl, rfl⟩

/-- C79 at work: a 2 × 16 bitmap in a vector with room for 4 rows, assigned a 3 × 8 bitmap without memory for the third row -/
example : ∃ m', AssignMemory.assign ⟨4, [2, 2], 0⟩ (Generator.blank 3 8) (Generator.blank 2 16) = .throw .badAlloc m' ∧
    m'.isize = 2 ∧ m'.jsize = 16 ∧ ∀ i, i < 2 → BitMatrix.get m' i 15 = .ub :=
  C79_trap ⟨4, [2, 2], 0⟩ (Generator.blank 2 16) (Generator.blank 3 8) (built_blank (by decide) (by decide)) (built_blank (by decide) (by decide))
    (by decide) (by decide) (by decide) (by decide) rfl (by decide) rfl

/-- a failure half-way with wider rows: row 0 new, row 1 old -/
example : AssignMemory.assign ⟨2, [1, 1], 1⟩ ⟨[[1, 1], [2, 2]], 2, 16⟩ ⟨[[7], [8]], 2, 8⟩ =
    .throw .badAlloc ⟨[[1, 1], [8]], 2, 8⟩ := by decide

/-- and the layout classes -/
example : assignL ⟨0, [], 2⟩ (Generator.blank 2 8) (Generator.blank 2 16) = .throw .badAlloc ⟨[], 2, 8⟩ ∧
    AssignMemory.moveNewL 2 (Generator.blank 2 8) = none := by decide

end Verif.Props
