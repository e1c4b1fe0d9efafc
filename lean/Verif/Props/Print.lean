import Verif.Model.Print
import Verif.Props.Zond

/-! C49: the text `BitMatrix::Print` writes. -/

namespace Verif.Props
open Verif BitMatrix Spec

theorem mapM_ok {α β : Type} {f : α → Res β} {g : α → β} : ∀ {l : List α}, (∀ a ∈ l, f a = .ok (g a)) →
    l.mapM f = .ok (l.map g)
  | [], _ => by simp
  | a :: l, h => by
    rw [List.mapM_cons, h a List.mem_cons_self, Res.ok_bind,
      mapM_ok fun b hb => h b (List.mem_cons_of_mem _ hb)]
    rfl

/-- the bytes printed for one bit -/
def bitChar (b : Bool) : UInt8 := if b then 49 else 48

theorem print_eq {m : BitMatrix} (h : WF m) :
    print m = .ok (((List.range m.isize).map fun i => ((List.range m.jsize).map fun j => bitChar (cell m i j)) ++ [10]).flatten ++ [10]) := by
  unfold print
  have hr : ∀ i ∈ List.range m.isize, printRow m i = .ok (((List.range m.jsize).map fun j => bitChar (cell m i j)) ++ [10]) := by
    intro i hi
    unfold printRow
    rw [mapM_ok (g := fun j => bitChar (cell m i j))]
    · rfl
    · intro j hj
      rw [unsafeGet_eq h (List.mem_range.mp hi) (div8_lt _ _ (List.mem_range.mp hj))]
      rfl
  rw [mapM_ok hr]
  rfl

theorem flatten_const_get {α : Type} {w : Nat} : ∀ {rows : List (List α)} (_ : ∀ r ∈ rows, r.length = w) (i j : Nat)
    (_ : i < rows.length) (_ : j < w), rows.flatten[i * w + j]? = (rows[i]?.bind fun r => r[j]?)
  | [], _, i, j, hi, _ => by simp at hi
  | r :: rows, h, i, j, hi, hj => by
    have hr : r.length = w := h r List.mem_cons_self
    cases i with
    | zero => simp [List.getElem?_append_left (show j < r.length by omega)]
    | succ i =>
      rw [List.flatten_cons, List.getElem?_append_right (by rw [hr, Nat.succ_mul]; omega)]
      have e : (i + 1) * w + j - r.length = i * w + j := by rw [hr, Nat.succ_mul]; omega
      rw [e, flatten_const_get (fun q hq => h q (List.mem_cons_of_mem _ hq)) i j (by simp at hi; omega) hj]
      simp

theorem flatten_const_len {α : Type} {w : Nat} : ∀ {rows : List (List α)} (_ : ∀ r ∈ rows, r.length = w),
    rows.flatten.length = rows.length * w
  | [], _ => by simp
  | r :: rows, h => by
    rw [List.flatten_cons, List.length_append, h r List.mem_cons_self,
      flatten_const_len fun q hq => h q (List.mem_cons_of_mem _ hq), List.length_cons, Nat.succ_mul]
    omega

/-- **C49** For every matrix, `Print` writes one line per row, in order, with a `1` for every set bit and a `0` for
every clear one, each line ended by a line feed, and one more line feed at the end.  No undefined behaviour. -/
theorem C49_print (m : BitMatrix) (hm : Built m) :
    ∃ txt, print m = .ok txt ∧ txt.length = m.isize * (m.jsize + 1) + 1 ∧
      (∀ i j, i < m.isize → j < m.jsize → (txt[i * (m.jsize + 1) + j]? = some 49 ∧ Lit m i j) ∨
        (txt[i * (m.jsize + 1) + j]? = some 48 ∧ ¬ Lit m i j)) ∧
      (∀ i, i < m.isize → txt[i * (m.jsize + 1) + m.jsize]? = some 10) ∧
      txt[m.isize * (m.jsize + 1)]? = some 10 := by
  have w := hm.inv.1
  refine ⟨_, print_eq w, ?_⟩
  generalize hrows : ((List.range m.isize).map fun i => ((List.range m.jsize).map fun j => bitChar (cell m i j)) ++ [(10 : UInt8)]) = rows
  have hlen : rows.length = m.isize := by rw [← hrows]; simp
  have hw : ∀ r ∈ rows, r.length = m.jsize + 1 := by
    intro r hr
    rw [← hrows] at hr
    obtain ⟨i, _, rfl⟩ := List.mem_map.mp hr
    simp
  have hfl : rows.flatten.length = m.isize * (m.jsize + 1) := by rw [flatten_const_len hw, hlen]
  have hrow : ∀ i, i < m.isize → rows[i]? = some (((List.range m.jsize).map fun j => bitChar (cell m i j)) ++ [(10 : UInt8)]) := by
    intro i hi
    rw [← hrows]
    simp [hi]
  have hin : ∀ i j, i < m.isize → j < m.jsize + 1 → i * (m.jsize + 1) + j < rows.flatten.length := by
    intro i j hi hj
    rw [hfl]
    calc i * (m.jsize + 1) + j < i * (m.jsize + 1) + (m.jsize + 1) := by omega
      _ = (i + 1) * (m.jsize + 1) := by rw [Nat.succ_mul]
      _ ≤ m.isize * (m.jsize + 1) := Nat.mul_le_mul_right _ hi
  refine ⟨by rw [List.length_append, hfl]; rfl, ?_, ?_, ?_⟩
  · intro i j hi hj
    rw [List.getElem?_append_left (hin i j hi (by omega)), flatten_const_get hw i j (by omega) (by omega), hrow i hi]
    simp only [Option.bind_some]
    rw [List.getElem?_append_left (by simpa using hj)]
    have : ((List.range m.jsize).map fun j => bitChar (cell m i j))[j]? = some (bitChar (cell m i j)) := by simp [hj]
    rw [this, lit_iff w]
    cases hc : cell m i j with
    | true => left; simp [bitChar, hi, hj]
    | false => right; simp [bitChar]
  · intro i hi
    rw [List.getElem?_append_left (hin i _ hi (by omega)), flatten_const_get hw i _ (by omega) (by omega), hrow i hi]
    simp
  · rw [List.getElem?_append_right (by omega), hfl]
    simp

/-- **C49** The printed text determines the matrix: different sizes or bits print differently. -/
theorem C49_injective (a b : BitMatrix) (ha : Built a) (hb : Built b) (h1 : 0 < a.isize) (h2 : 0 < b.isize)
    (e : print a = print b) :
    a.isize = b.isize ∧ a.jsize = b.jsize ∧ ∀ i j, Lit a i j ↔ Lit b i j := by
  obtain ⟨s, es, ls, bs, ns, _⟩ := C49_print a ha
  obtain ⟨t, et, lt, bt, nt, _⟩ := C49_print b hb
  rw [es, et] at e
  injection e with e
  subst e
  -- the first line feed marks the row length
  have key : ∀ x y : BitMatrix, 0 < x.isize →
      (∀ i j, i < x.isize → j < x.jsize → (s[i * (x.jsize + 1) + j]? = some 49 ∧ Lit x i j) ∨
        (s[i * (x.jsize + 1) + j]? = some 48 ∧ ¬ Lit x i j)) →
      0 < y.isize → (∀ i, i < y.isize → s[i * (y.jsize + 1) + y.jsize]? = some 10) → x.jsize ≤ y.jsize := by
    intro x y hx hb hy hn
    by_contra hlt
    have h1 := hb 0 y.jsize hx (by omega)
    have h2 := hn 0 hy
    rw [Nat.zero_mul, Nat.zero_add] at h1 h2
    rw [h2] at h1
    rcases h1 with ⟨h, _⟩ | ⟨h, _⟩ <;> simp at h
  have hj : a.jsize = b.jsize := Nat.le_antisymm (key a b h1 bs h2 nt) (key b a h2 bt h1 ns)
  have hi : a.isize = b.isize := by
    rw [ls, hj] at lt
    have : a.isize * (b.jsize + 1) = b.isize * (b.jsize + 1) := by omega
    exact Nat.eq_of_mul_eq_mul_right (by omega) this
  refine ⟨hi, hj, fun i j => ?_⟩
  by_cases hb' : i < a.isize ∧ j < a.jsize
  · have p := bs i j hb'.1 hb'.2
    have q := bt i j (by omega) (by omega)
    rw [hj] at p
    rcases p with ⟨p1, p2⟩ | ⟨p1, p2⟩ <;> rcases q with ⟨q1, q2⟩ | ⟨q1, q2⟩
    · exact ⟨fun _ => q2, fun _ => p2⟩
    · rw [p1] at q1; simp at q1
    · rw [p1] at q1; simp at q1
    · exact ⟨fun h => absurd h p2, fun h => absurd h q2⟩
  · rw [lit_iff ha.inv.1, lit_iff hb.inv.1]
    constructor
    · rintro ⟨x, y, _⟩; exact absurd ⟨x, y⟩ hb'
    · rintro ⟨x, y, _⟩; exact absurd ⟨by omega, by omega⟩ hb'

/-- a 2×9 matrix with one bit set -/
example : ∃ m, BitMatrix.set 1 8 true (BitMatrix.new Alloc.ok 2 9) = .ok () m ∧ Built m ∧
    print m = .ok (lit "000000000\n000000001\n\n") := by
  refine ⟨⟨[[0, 0], [0, 128]], 2, 9⟩, by decide +kernel, .set (.new 2 9 (by norm_num) (by norm_num)) (i := 1) (j := 8) (v := true) (by decide +kernel), by decide +kernel⟩

end Verif.Props
