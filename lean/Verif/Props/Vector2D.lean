import Verif.Model.Vector2D

/-! Property C04: `Vector2D` shape and checked access. -/

namespace Verif.Props
open Verif

variable {α : Type}

/-- **C04** `At(i,j)` returns the element when `i` is a row and `j` a column of that row, and throws
`invalid_argument` otherwise; it is never UB, for containers of any (also ragged) shape. -/
theorem C04_at (d : V2 α) (i j : Nat) :
    (∃ (hi : i < d.length) (hj : j < d[i].length), V2.at' d i j = .ok d[i][j]) ∨
    ((¬ ∃ (hi : i < d.length), j < d[i].length) ∧ V2.at' d i j = .throw .invalidArgument) := by
  by_cases hi : i < d.length
  · by_cases hj : j < d[i].length
    · left
      refine ⟨hi, hj, ?_⟩
      have h1 : ¬ d.length ≤ i := by omega
      have h2 : ¬ d[i].length ≤ j := by omega
      simp [V2.at', h1, Res.idx_of_lt _ _ hi, h2, Res.idx_of_lt _ _ hj]
    · right
      refine ⟨fun ⟨_, h⟩ => hj h, ?_⟩
      have h1 : ¬ d.length ≤ i := by omega
      have h2 : d[i].length ≤ j := by omega
      simp [V2.at', h1, Res.idx_of_lt _ _ hi, h2]
  · right
    refine ⟨fun ⟨h, _⟩ => hi h, ?_⟩
    have h1 : d.length ≤ i := by omega
    simp [V2.at', h1]

/-- **C04** after a successful `Resize(r,c)` there are `r` rows of `c` default elements, whatever the
container held before. -/
theorem C04_resize (dflt : α) (al : Alloc) (r c : Nat) (d : V2 α) (hal : al r c = none) :
    ∃ d', V2.resize dflt al r c d = .ok () d' ∧ d'.length = r ∧
      ∀ i j, V2.at' d' i j = if i < r ∧ j < c then .ok dflt else .throw .invalidArgument := by
  refine ⟨List.replicate r (List.replicate c dflt), by simp [V2.resize, hal], by simp, ?_⟩
  intro i j
  by_cases hi : i < r
  · by_cases hj : j < c
    · have h1 : ¬ r ≤ i := by omega
      have h2 : ¬ c ≤ j := by omega
      simp [V2.at', hi, hj, h1, Res.idx, h2]
    · have h1 : ¬ r ≤ i := by omega
      have h2 : c ≤ j := by omega
      simp [V2.at', hi, hj, h1, Res.idx, h2]
  · have h1 : r ≤ i := by omega
    simp [V2.at', hi, h1]

/-- **C04** the sized constructor gives the requested shape for `1 ≤ r,c ≤ 5000` and an empty container
(no exception) for all other arguments. -/
theorem C04_new (dflt : α) (r c : Nat) :
    V2.new dflt Alloc.ok r c =
      if 1 ≤ r ∧ r ≤ 5000 ∧ 1 ≤ c ∧ c ≤ 5000 then .ok () (List.replicate r (List.replicate c dflt))
      else .ok () [] := by
  simp only [V2.new, V2.isIndexValid, Bool.or_eq_true, Bool.not_not,
    beq_iff_eq, decide_eq_true_eq, V2.resize, Alloc.ok]
  by_cases h : 1 ≤ r ∧ r ≤ 5000 ∧ 1 ≤ c ∧ c ≤ 5000
  · rw [if_neg (by omega), if_pos h]
  · rw [if_pos (by omega), if_neg h]

/-- **C04** When memory may run out, the sized constructor with valid arguments gives either the requested shape or `bad_alloc`; with
invalid ones it asks for no memory. -/
theorem C04_new_memory (dflt : α) (al : Alloc) (r c : Nat) :
    (1 ≤ r ∧ r ≤ 5000 ∧ 1 ≤ c ∧ c ≤ 5000 →
      V2.new dflt al r c = .ok () (List.replicate r (List.replicate c dflt)) ∨ ∃ d, V2.new dflt al r c = .throw .badAlloc d) ∧
    (¬ (1 ≤ r ∧ r ≤ 5000 ∧ 1 ≤ c ∧ c ≤ 5000) → V2.new dflt al r c = .ok () []) := by
  simp only [V2.new, V2.isIndexValid, Bool.or_eq_true, Bool.not_not, beq_iff_eq, decide_eq_true_eq, V2.resize]
  constructor
  · intro h
    rw [if_neg (by omega)]
    split
    · exact .inl rfl
    · exact .inr ⟨_, rfl⟩
    · split
      · exact .inr ⟨_, rfl⟩
      · exact .inl rfl
  · intro h
    rw [if_pos (by omega)]

/-- **C04** `operator!` is false exactly for a non-empty container whose rows all have the same non-zero
length. -/
theorem C04_opNot (d : V2 α) :
    V2.opNot d = false ↔ d ≠ [] ∧ ∃ n, 0 < n ∧ ∀ row ∈ d, row.length = n := by
  cases d with
  | nil => simp [V2.opNot, V2.checkParameters]
  | cons r rs =>
    simp only [V2.opNot, V2.checkParameters, Bool.not_eq_false', List.all_eq_true, ne_eq,
      reduceCtorEq, not_false_eq_true, true_and]
    constructor
    · intro h
      refine ⟨r.length, ?_, ?_⟩
      · have := h r (by simp)
        simp at this
        exact List.length_pos_iff.mpr this
      · intro row hr
        have := h row hr
        simp at this
        exact this.2.symm
    · intro ⟨n, hn, h⟩ row hr
      have h1 := h r (by simp)
      have h2 := h row hr
      simp [h1, h2]; omega

/-- **C04** (trap) `ColCount()` of a container without rows is UB, with rows it is the first row's length. -/
theorem C04_colCount (d : V2 α) :
    V2.colCount d = match d with | [] => .ub | r :: _ => .ok r.length := by
  cases d <;> rfl

/-- **C04** after a successful `Resize(r,c)` the counts are `r` and `c`; without rows `ColCount()` is undefined. -/
theorem C04_counts (dflt : α) (al : Alloc) (r c : Nat) (d d' : V2 α) (hal : al r c = none) (h : V2.resize dflt al r c d = .ok () d') :
    V2.rowCount d' = r ∧ V2.colCount d' = (if r = 0 then .ub else .ok c) := by
  have e : V2.resize dflt al r c d = .ok () (List.replicate r (List.replicate c dflt)) := by simp [V2.resize, hal]
  rw [e] at h
  injection h with _ h
  subst h
  cases r with
  | zero => exact ⟨rfl, rfl⟩
  | succ r => simp [V2.rowCount, V2.colCount, List.replicate_succ]

/-- **C04** Assigning through `v[i][j]` changes exactly that element; outside the container it is undefined. -/
theorem C04_write (d : V2 α) (i j : Nat) (x : α) :
    (∀ (hi : i < d.length), j < d[i].length → ∃ d', V2.write d i j x = .ok d' ∧
      ∀ i' j', V2.at' d' i' j' = if i' = i ∧ j' = j then .ok x else V2.at' d i' j') ∧
    ((¬ ∃ (hi : i < d.length), j < d[i].length) → V2.write d i j x = .ub) := by
  constructor
  · intro hi hj
    refine ⟨d.set i (d[i].set j x), ?_, ?_⟩
    · simp [V2.write, List.getElem?_eq_getElem hi, hj]
    · intro i' j'
      unfold V2.at'
      rw [List.length_set]
      by_cases h1 : d.length ≤ i'
      · rw [if_pos h1, if_pos h1, if_neg (by omega)]
      · have h1' : i' < d.length := by omega
        rw [if_neg h1, if_neg h1]
        by_cases h2 : i' = i
        · subst h2
          have e1 : Res.idx (d.set i' (d[i'].set j x)) i' = .ok (d[i'].set j x) := by
            simp [Res.idx, h1']
          rw [e1, Res.idx_of_lt _ _ h1', Res.ok_bind, Res.ok_bind, List.length_set]
          by_cases h3 : j' = j
          · subst h3
            rw [if_neg (by omega), if_pos ⟨rfl, rfl⟩]
            simp [Res.idx, hj]
          · rw [if_neg (fun h : i' = i' ∧ j' = j => h3 h.2)]
            simp [Res.idx, List.getElem?_set, Ne.symm h3]
        · rw [if_neg (fun h : i' = i ∧ j' = j => h2 h.1)]
          have e1 : Res.idx (d.set i (d[i].set j x)) i' = Res.idx d i' := by
            simp [Res.idx, List.getElem?_set, Ne.symm h2]
          rw [e1]
  · intro h
    unfold V2.write
    by_cases hi : i < d.length
    · rw [List.getElem?_eq_getElem hi]
      dsimp only
      rw [if_neg (fun hj => h ⟨hi, hj⟩)]
    · rw [List.getElem?_eq_none (by omega)]

/-- **C04** `Reset` leaves nothing: every access throws and the container counts as invalid. -/
theorem C04_reset (d : V2 α) (i j : Nat) :
    V2.rowCount (V2.reset d) = 0 ∧ V2.at' (V2.reset d) i j = .throw .invalidArgument ∧ V2.opNot (V2.reset d) = true :=
  ⟨rfl, rfl, rfl⟩

/-- C04_write and C04_counts at work. -/
example : V2.write [[1, 2, 3], [4, 5, 6]] 1 0 9 = .ok [[1, 2, 3], [9, 5, 6]] ∧ V2.write [[1]] 0 1 9 = .ub ∧
    V2.resize 0 Alloc.ok 2 1 [[7]] = .ok () [[0], [0]] := by decide

example : V2.at' [[1, 2, 3], [4, 5, 6]] 1 2 = .ok 6 ∧
    V2.at' [[1, 2, 3], [4, 5, 6]] 2 0 = .throw .invalidArgument ∧
    V2.opNot [[1, 2], [3]] = true := by decide

end Verif.Props
