import Verif.Props.Serialize
import Verif.Proofs.RleRuns
import Verif.Proofs.Ieee

/-! Properties C26–C28: run-length encoding of matrices and strings. -/

namespace Verif

open BitMatrix in
/-- Every well-formed object of representable size is reachable through the public API: `Built` is not a
restriction beyond the class invariant. -/
theorem Props.Built.of_wf {m : BitMatrix} (w : WF m) (h1 : m.isize < 2 ^ 64) (h2 : m.jsize < 2 ^ 64) :
    Props.Built m := by
  have hn := new_eq (al := Alloc.ok) (r := m.isize) (c := m.jsize) rfl
  obtain ⟨t, _, hb, d1, d2, hc⟩ := M.loop2_inv
    (body := fun i jb => BitMatrix.setByte i jb (byteAt m i jb))
    (fun n t => Props.Built t ∧ t.isize = m.isize ∧ t.jsize = m.jsize ∧
      ∀ i jb, jb < bytesPerRow m.jsize → i * bytesPerRow m.jsize + jb < n → byteAt t i jb = byteAt m i jb)
    m.isize (bytesPerRow m.jsize) (BitMatrix.new Alloc.ok m.isize m.jsize)
    ⟨.new _ _ h1 h2, by rw [hn], by rw [hn], by intros; omega⟩ (by
      intro i j t hi hj ⟨hb, d1, d2, hc⟩
      obtain ⟨t', e, w', s1, s2, hb'⟩ := setByte_eq hb.inv.1 (i := i) (jb := j) (by omega)
        (by rw [d2]; exact hj) (byteAt m i j)
      refine ⟨t', e, .setByte hb e, by omega, by omega, ?_⟩
      intro i' j' hj' hlt
      rw [hb']
      split
      · rename_i h; rw [h.1, h.2]
      · rename_i h
        apply hc i' j' hj'
        have : i' * bytesPerRow m.jsize + j' ≠ i * bytesPerRow m.jsize + j :=
          fun hh => h (flat_inj hj' hj hh)
        omega)
  have : t = m := by
    obtain ⟨wt, _, _⟩ := hb.inv
    have hbm : t.bitmap = m.bitmap := by
      apply List.ext_getElem
      · rw [wt.1, w.1, d1]
      · intro i p q
        have hi : i < m.isize := by rw [← w.1]; exact q
        have r1 : (t.bitmap[i]).length = bytesPerRow m.jsize := by
          rw [← d2]; exact wt.2 _ (List.getElem_mem p)
        have r2 : (m.bitmap[i]).length = bytesPerRow m.jsize := w.2 _ (List.getElem_mem q)
        apply List.ext_getElem (by rw [r1, r2])
        intro j p' q'
        have hj : j < bytesPerRow m.jsize := by omega
        have := hc i j hj (flat_lt hi hj)
        simpa [byteAt, List.getD_eq_getElem?_getD, p, q, p', q'] using this
    cases t; cases m; simp_all
  exact this ▸ hb

namespace Props
open Verif BitMatrix Rle Ieee
open Verif.Spec (Runs runsBits runsCode rowMajor expand runLen runVal msbBits)

theorem expand_rowMajor {m : BitMatrix} (w : WF m) {s : List UInt8}
    (hs : expand s = Spec.rowMajor m.isize m.jsize (cell m)) :
    (expand s).length = m.isize * m.jsize ∧
    ∀ i j, i < m.isize → j < m.jsize →
      BitMatrix.get m i j = .ok ((expand s).getD (i * m.jsize + j) false) := by
  refine ⟨by rw [hs]; simp [Spec.rowMajor], ?_⟩
  intro i j hi hj
  rw [get_eq w hi hj, hs]
  have := flat_lt hi hj
  simp [Spec.rowMajor, List.getD_eq_getElem?_getD, this, flat_div hj, flat_mod hj]

/-- **C26** `DecodeMatrix(Encode(m), rows, cols)` restores the matrix, for every matrix with cells whose
dimensions fit the `uint32_t` parameters. -/
theorem C26_roundtrip (m : BitMatrix) (hm : Built m) (h1 : 0 < m.isize) (h2 : 0 < m.jsize)
    (h3 : m.isize < 2 ^ 32) (h4 : m.jsize < 2 ^ 32) :
    ∃ s m', Rle.encode m = .ok s ∧
      Rle.decodeMatrix Alloc.ok s (UInt32.ofNat m.isize) (UInt32.ofNat m.jsize) = .ok m' ∧
      SameBits m m' := by
  obtain ⟨w, _, _⟩ := hm.inv
  obtain ⟨s, e, hx, _, hne, _⟩ := encode_eq w h1 h2
  obtain ⟨m', e', w', d1, d2, hc⟩ := decodeMatrix_eq hne (UInt32.ofNat m.isize) (UInt32.ofNat m.jsize)
  have t1 : (UInt32.ofNat m.isize).toNat = m.isize := by
    rw [UInt32.toNat_ofNat']; exact Nat.mod_eq_of_lt h3
  have t2 : (UInt32.ofNat m.jsize).toNat = m.jsize := by
    rw [UInt32.toNat_ofNat']; exact Nat.mod_eq_of_lt h4
  rw [t1, t2] at hc
  rw [t1] at d1
  rw [t2] at d2
  refine ⟨s, m', e, e', d1.symm, d2.symm, ?_⟩
  intro i j hi hj
  rw [(expand_rowMajor w hx).2 i j hi hj, get_eq w' (by omega) (by omega), hc i j hi hj]

/-- **C26** two matrices of the same dimensions with the same code have the same bits. -/
theorem C26_injective (a b : BitMatrix) (ha : Built a) (hb : Built b) (h1 : 0 < a.isize) (h2 : 0 < a.jsize)
    (h3 : a.isize = b.isize) (h4 : a.jsize = b.jsize) (h : Rle.encode a = Rle.encode b) : SameBits a b := by
  obtain ⟨wa, _, _⟩ := ha.inv
  obtain ⟨wb, _, _⟩ := hb.inv
  obtain ⟨s, e, hx, _⟩ := encode_eq wa h1 h2
  obtain ⟨t, e', hx', _⟩ := encode_eq wb (by omega) (by omega)
  have hst : s = t := by rw [e, e'] at h; simpa using h
  subst hst
  refine ⟨h3, h4, fun i j hi hj => ?_⟩
  rw [(expand_rowMajor wa hx).2 i j hi hj, (expand_rowMajor wb hx').2 i j (by omega) (by omega), h4]

/-- **C27** Structure of the code of a matrix with cells: the runs spell the cells row by row (top bit =
value, low seven bits = length), so the lengths sum to rows·cols; equal values in adjacent runs only occur
after a full run of 127, zero lengths only right after one; at most rows·cols + 1 bytes. -/
theorem C27_structure (m : BitMatrix) (hm : Built m) (h1 : 0 < m.isize) (h2 : 0 < m.jsize) :
    ∃ s, Rle.encode m = .ok s ∧
      (expand s).length = m.isize * m.jsize ∧ (s.map runLen).sum = m.isize * m.jsize ∧
      (∀ i j, i < m.isize → j < m.jsize →
        BitMatrix.get m i j = .ok ((expand s).getD (i * m.jsize + j) false)) ∧
      (∀ i a b, s[i]? = some a → s[i + 1]? = some b → runVal a = runVal b → runLen a = 127) ∧
      (∀ i b, s[i]? = some b → runLen b = 0 →
        ∃ j a, i = j + 1 ∧ s[j]? = some a ∧ runVal a = runVal b ∧ runLen a = 127) ∧
      s ≠ [] ∧ s.length ≤ m.isize * m.jsize + 1 := by
  obtain ⟨w, _, _⟩ := hm.inv
  obtain ⟨s, e, hx, hc, hne, hl⟩ := encode_eq w h1 h2
  obtain ⟨e1, e2⟩ := expand_rowMajor w hx
  exact ⟨s, e, e1, by rw [← expand_length, e1], e2, hc.2, hc.1, hne, hl⟩

/-- **C27** The code, byte for byte: the cells row by row fall into maximal runs in exactly one way, and every run of `n`
cells gives ⌊n/127⌋ bytes for 127 cells and one for the rest (of length 0 if 127 divides `n`). -/
theorem C27_exact_code (m : BitMatrix) (hm : Built m) (h1 : 0 < m.isize) (h2 : 0 < m.jsize) (f : Nat → Nat → Bool)
    (hf : ∀ i j, i < m.isize → j < m.jsize → BitMatrix.get m i j = .ok (f i j)) :
    ∃ rs, (∀ rs', Runs rs' ∧ runsBits rs' = rowMajor m.isize m.jsize f ↔ rs' = rs) ∧ Rle.encode m = .ok (runsCode rs) := by
  obtain ⟨w, _, _⟩ := hm.inv
  obtain ⟨rs, hr, hb, e⟩ := Rle.encode_runs w h1 h2
  have hcell : rowMajor m.isize m.jsize f = rowMajor m.isize m.jsize (cell m) := by
    unfold rowMajor
    apply List.map_congr_left
    intro n hn
    rw [List.mem_range] at hn
    have hi : n / m.jsize < m.isize := Nat.div_lt_of_lt_mul (by rw [Nat.mul_comm]; exact hn)
    have hj : n % m.jsize < m.jsize := Nat.mod_lt _ h2
    have := hf _ _ hi hj
    rw [get_eq w hi hj] at this
    exact (Res.ok.inj this).symm
  refine ⟨rs, fun rs' => ⟨fun h => Rle.runs_unique h.1 hr (by rw [h.2, hcell, hb]), ?_⟩, e⟩
  rintro rfl
  exact ⟨hr, by rw [hcell, hb]⟩

/-- **C27** So the size of the code is the sum of ⌊n/127⌋ + 1 over the maximal runs: at most one byte per cell, and more than
one byte for every 127 cells. -/
theorem C27_size (m : BitMatrix) (hm : Built m) (h1 : 0 < m.isize) (h2 : 0 < m.jsize) (f : Nat → Nat → Bool)
    (hf : ∀ i j, i < m.isize → j < m.jsize → BitMatrix.get m i j = .ok (f i j)) (rs : List (Bool × Nat)) (hr : Runs rs)
    (hb : runsBits rs = rowMajor m.isize m.jsize f) :
    ∃ s, Rle.encode m = .ok s ∧ s.length = (rs.map fun r => r.2 / 127 + 1).sum ∧ s.length ≤ m.isize * m.jsize ∧
      m.isize * m.jsize < 127 * s.length := by
  obtain ⟨rs', h, e⟩ := C27_exact_code m hm h1 h2 f hf
  obtain rfl := (h rs).1 ⟨hr, hb⟩
  have hlen := congrArg List.length hb
  rw [Rle.runsBits_length] at hlen
  simp only [rowMajor, List.length_map, List.length_range] at hlen
  refine ⟨_, e, Rle.runsCode_length rs, ?_, ?_⟩
  · rw [Rle.runsCode_length, ← hlen]
    apply List.sum_le_sum
    intro r hr'
    have := hr.pos r hr'
    omega
  · rw [Rle.runsCode_length, ← hlen]
    have hpos := Nat.mul_pos h1 h2
    rw [← hlen] at hpos
    have key : ∀ l : List (Bool × Nat), l ≠ [] → (l.map fun r => r.2).sum < 127 * (l.map fun r => r.2 / 127 + 1).sum := by
      intro l
      induction l with
      | nil => simp
      | cons r l ih =>
        intro _
        by_cases hl : l = []
        · subst hl
          simp only [List.map_cons, List.map_nil, List.sum_cons, List.sum_nil]
          omega
        · have := ih hl
          simp only [List.map_cons, List.sum_cons]
          omega
    apply key
    rintro rfl
    simp at hpos

/-- C27 at work: 20×30 dark cells are one run of 600, which takes 4 full bytes and one for the other 92. -/
example : ∃ s, Rle.encode (BitMatrix.new Alloc.ok 20 30) = .ok s ∧ s.length = 5 := by
  have hz : ∀ (i : Fin 20) (j : Fin 30), BitMatrix.get (BitMatrix.new Alloc.ok 20 30) i j = .ok false := by decide +kernel
  obtain ⟨s, h1, h2, _⟩ := C27_size (BitMatrix.new Alloc.ok 20 30) (.new 20 30 (by decide) (by decide)) (by decide) (by decide)
    (fun _ _ => false) (fun i j hi hj => hz ⟨i, hi⟩ ⟨j, hj⟩) [(false, 600)] ⟨by simp, by simp⟩ (by decide +kernel)
  exact ⟨s, h1, h2⟩

/-- **C27** the code of a matrix without cells is empty, and decoding the empty string gives the empty
matrix whatever dimensions were asked for. -/
theorem C27_empty (m : BitMatrix) (hm : Built m) (h : m.isize = 0 ∨ m.jsize = 0) (al : Alloc) (r c : UInt32) :
    Rle.encode m = .ok [] ∧ Rle.decodeMatrix al [] r c = .ok BitMatrix.empty := by
  have : opNot m = true := by rw [opNot_eq hm.inv.1]; simpa using h
  exact ⟨by simp [Rle.encode, this], by simp [Rle.decodeMatrix]⟩

/-- **C27** The decoder accepts every non-empty byte string and every requested size: no exception, no
undefined behaviour; cells come from the runs in row-major order, surplus runs are ignored, missing cells
stay 0. -/
theorem C27_decode_total (str : List UInt8) (hs : str ≠ []) (r c : UInt32) :
    ∃ m, Rle.decodeMatrix Alloc.ok str r c = .ok m ∧ Built m ∧ m.isize = r.toNat ∧ m.jsize = c.toNat ∧
      ∀ i j, i < r.toNat → j < c.toNat →
        BitMatrix.get m i j = .ok ((expand str).getD (i * c.toNat + j) false) := by
  obtain ⟨m, e, w, d1, d2, hc⟩ := decodeMatrix_eq hs r c
  have r1 := r.toNat_lt
  have c1 := c.toNat_lt
  refine ⟨m, e, Built.of_wf w (by omega) (by omega), d1, d2, ?_⟩
  intro i j hi hj
  rw [get_eq w (by omega) (by omega), hc i j hi hj]

/-- **C27** (with C16) if the matrix cannot be allocated the decoder returns the empty matrix, it does not
report the failure. -/
theorem C27_decode_allocFail (al : Alloc) (str : List UInt8) (r c : UInt32)
    (h : BitMatrix.new al r.toNat c.toNat = BitMatrix.empty) :
    Rle.decodeMatrix al str r c = .ok BitMatrix.empty := decodeMatrix_allocFail r c h

/-- **C27** Compression coefficient of a matrix: quotient of the serialised size `18 + ⌊rows·cols/8⌋` and
the code length, correctly rounded; 0 for a matrix without cells.  It never divides by zero. -/
theorem C27_coefficient (m : BitMatrix) (hm : Built m) :
    ((m.isize = 0 ∨ m.jsize = 0) → Rle.coeffMatrix rne m = .ok (.fin 0)) ∧
    (0 < m.isize → 0 < m.jsize → m.isize * m.jsize < 2 ^ 52 →
      ∃ s, Rle.encode m = .ok s ∧ Rle.coeffMatrix rne m =
        .ok (.fin (rne (((18 + m.isize * m.jsize / 8 : ℕ) : ℚ) / (s.length : ℚ))))) := by
  obtain ⟨w, _, _⟩ := hm.inv
  constructor
  · intro h
    have : opNot m = true := by rw [opNot_eq w]; simpa using h
    simp [Rle.coeffMatrix, this]
  · intro h1 h2 h3
    have hn : opNot m = false := by rw [opNot_eq w]; simp; omega
    obtain ⟨s, e, _, _, hne, hl⟩ := encode_eq w h1 h2
    obtain ⟨p, ep, hp, _⟩ := serialize_eq w h1 h2
    refine ⟨s, e, ?_⟩
    have hlen : (8 :: le64 m.isize ++ 8 :: le64 m.jsize ++ p : List UInt8).length =
        18 + m.isize * m.jsize / 8 := by
      simp [le64_length, hp]; omega
    have hs0 : 0 < s.length := List.length_pos_of_ne_nil hne
    simp only [Rle.coeffMatrix, hn, ep, e, Res.ok_bind, Res.pure_eq, hlen]
    have r1 := rne_rounding.nat (18 + m.isize * m.jsize / 8) (by omega)
    have r2 := rne_rounding.nat s.length (by omega)
    rw [r1, r2]
    have : ((s.length : ℕ) : ℚ) ≠ 0 := by positivity
    simp [Dbl.div, this]

/-- **C28** the string codecs are stubs: both directions return the empty string for every input, so a
string survives encode+decode exactly when it is empty. -/
theorem C28_string_stub (s : List UInt8) :
    Rle.encodeStr s = .ok [] ∧ Rle.decodeStr s = .ok [] ∧
      ((Rle.encodeStr s >>= Rle.decodeStr) = .ok s ↔ s = []) := by
  refine ⟨rfl, rfl, ?_⟩
  show Res.ok [] = Res.ok s ↔ s = []
  constructor
  · intro h; injection h with h; exact h.symm
  · rintro rfl; rfl

/-- **C28** `ByteDecode` returns the empty string for every input. -/
theorem C28_byteDecode_empty (s : List UInt8) : Rle.byteDecode s = .ok [] := byteDecode_eq s

/-- **C28** `ByteEncode` does produce a correct run-length code of the bits of every non-empty string
(most significant bit first), is undefined for the empty string, and is never inverted by `ByteDecode`. -/
theorem C28_byteEncode (s : List UInt8) :
    (s = [] → Rle.byteEncode s = .ub) ∧
    (s ≠ [] → ∃ e, Rle.byteEncode s = .ok e ∧ expand e = msbBits s ∧ e.length ≤ 8 * s.length + 1 ∧
      Rle.byteDecode e ≠ .ok s) := by
  refine ⟨by rintro rfl; rfl, fun hs => ?_⟩
  obtain ⟨e, he, hx, _, _, hl⟩ := byteEncode_eq hs
  refine ⟨e, he, hx, by omega, ?_⟩
  rw [byteDecode_eq]
  intro h; injection h with h; exact hs h.symm

/-- **C28** consequence for `CalcCompressionCoeffitient(str, false)`: infinite for every non-empty string,
0 for the empty one. -/
theorem C28_coefficient (s : List UInt8) (h : s.length < 2 ^ 53) :
    Rle.coeffStr rne s false = .ok (if s = [] then .fin 0 else .inf) := by
  by_cases hs : s = []
  · simp [Rle.coeffStr, hs]
  · have hl : 0 < s.length := List.length_pos_of_ne_nil hs
    have r1 := rne_rounding.nat s.length (by omega)
    have r0 := rne_rounding.zero
    have hne : ((s.length : ℕ) : ℚ) ≠ 0 := by positivity
    have z0 : rne (([] : List UInt8).length : ℕ) = 0 := by simpa using r0
    simp only [Rle.coeffStr, hs, if_false, Rle.encodeStr, Res.ok_bind, Res.pure_eq, r1, z0, Dbl.div,
      if_true, hne, Bool.false_eq_true]

/-! Non-vacuity: concrete objects meeting the hypotheses. -/

example : ∃ s m', Rle.encode (BitMatrix.new Alloc.ok 20 30) = .ok s ∧
    Rle.decodeMatrix Alloc.ok s (UInt32.ofNat 20) (UInt32.ofNat 30) = .ok m' ∧
    SameBits (BitMatrix.new Alloc.ok 20 30) m' :=
  C26_roundtrip _ (.new 20 30 (by decide) (by decide)) (by decide) (by decide) (by decide) (by decide)

example : Rle.byteEncode [0xF0, 0x00] = .ok [0x84, 0x0C] := by decide +kernel
example : expand [0x84, 0x0C] = msbBits [0xF0, 0x00] := by decide +kernel
/-- a run of exactly 127 zeros followed by a one emits a zero-length run -/
example : Rle.encode ⟨[List.replicate 15 0 ++ [1]], 1, 128⟩ = .ok [127, 0, 129] := by decide +kernel

end Props
end Verif
