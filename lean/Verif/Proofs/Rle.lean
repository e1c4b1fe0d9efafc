import Verif.Model.Rle
import Verif.Spec.Rle
import Verif.Proofs.Serialize
import Mathlib.Data.List.Induction

namespace Verif.Rle
open ByteHandler BitMatrix Spec

theorem expand_append (a b : List UInt8) : expand (a ++ b) = expand a ++ expand b := by
  induction a with
  | nil => rfl
  | cons x xs ih => simp [expand, ih, List.append_assoc]

theorem expand_length (s : List UInt8) : (expand s).length = (s.map runLen).sum := by
  induction s with
  | nil => rfl
  | cons x xs ih => simp [expand, ih]

/-- `SetBit(key, 7, v)` on a 7-bit key -/
theorem setBit7 (k : UInt8) (v : Bool) (h : k.toNat < 128) :
    ∃ k', setBit k 7 v = .ok k' ∧ runLen k' = k.toNat ∧ runVal k' = v := by
  obtain ⟨k', e, hk⟩ := setBit_ok k 7 v (by omega)
  refine ⟨k', e, ?_, ?_⟩
  · unfold runLen
    rw [show (128 : Nat) = 2 ^ 7 from rfl]
    apply Nat.eq_of_testBit_eq
    intro i
    rw [Nat.testBit_mod_two_pow]
    by_cases hi : i < 7
    · have := hk i (by omega)
      simp [hi, this, show i ≠ 7 by omega]
    · have : k.toNat.testBit i = false := by
        apply Nat.testBit_lt_two_pow
        calc k.toNat < 128 := h
          _ = 2 ^ 7 := rfl
          _ ≤ 2 ^ i := Nat.pow_le_pow_right (by omega) (by omega)
      simp [hi, this]
  · have h7 := hk 7 (by omega)
    simp only [if_true] at h7
    unfold runVal
    have hlt := k'.toNat_lt
    rw [Nat.testBit_eq_decide_div_mod_eq] at h7
    rw [← h7, decide_eq_decide]
    omega

theorem clear7 (c : UInt8) :
    ∃ k, setBit c 7 false = .ok k ∧ k.toNat = runLen c := by
  obtain ⟨k', e, hk⟩ := setBit_ok c 7 false (by omega)
  refine ⟨k', e, ?_⟩
  unfold runLen
  rw [show (128 : Nat) = 2 ^ 7 from rfl]
  apply Nat.eq_of_testBit_eq
  intro i
  rw [Nat.testBit_mod_two_pow]
  by_cases hi : i < 8
  · have := hk i hi
    by_cases h7 : i = 7
    · subst h7; simp [this]
    · simp [this, h7, show i < 7 by omega]
  · rw [testBit_ge_of_byte _ _ (by omega)]
    simp [show ¬ i < 7 by omega]

theorem getBit7 (c : UInt8) : getBit c 7 = .ok (runVal c) := by
  rw [getBit_eq _ _ (by omega), Nat.testBit_eq_decide_div_mod_eq]
  unfold runVal
  have := c.toNat_lt
  congr 1
  rw [decide_eq_decide]; omega

/-- Structure of the emitted runs: two adjacent runs have the same value only after a full run of 127, and
a zero-length run only follows a full run of the same value. -/
def Canon (out : List UInt8) : Prop :=
  (∀ i b, out[i]? = some b → runLen b = 0 →
    ∃ j a, i = j + 1 ∧ out[j]? = some a ∧ runVal a = runVal b ∧ runLen a = 127) ∧
  ∀ i a b, out[i]? = some a → out[i + 1]? = some b → runVal a = runVal b → runLen a = 127

structure EncInv (bits : List Bool) (s : EncSt) : Prop where
  key : s.key.toNat < 127
  exp : expand s.out ++ List.replicate s.key.toNat s.cur = bits
  canon : Canon s.out
  last : ∀ b, s.out.getLast? = some b → runVal b = s.cur → runLen b = 127
  zero : s.key.toNat = 0 → bits ≠ [] → ∃ b, s.out.getLast? = some b ∧ runVal b = s.cur ∧ runLen b = 127
  len : s.out.length ≤ bits.length

theorem canon_push {out : List UInt8} {k : UInt8} {cur : Bool} (h : Canon out)
    (hl : ∀ b, out.getLast? = some b → runVal b = cur → runLen b = 127) (hv : runVal k = cur)
    (hz : runLen k = 0 → ∃ b, out.getLast? = some b ∧ runVal b = cur ∧ runLen b = 127) :
    Canon (out ++ [k]) := by
  refine ⟨?_, ?_⟩
  · intro i b hb h0
    by_cases hi : i < out.length
    · rw [List.getElem?_append_left hi] at hb
      obtain ⟨j, a, e, ha, hr⟩ := h.1 i b hb h0
      exact ⟨j, a, e, by rw [List.getElem?_append_left (by omega)]; exact ha, hr⟩
    · have hlen : i = out.length := by
        have : i < (out ++ [k]).length := by
          rw [List.getElem?_eq_some_iff] at hb; exact hb.1
        simp at this; omega
      subst hlen
      simp at hb
      subst hb
      obtain ⟨a, ha, h1, h2⟩ := hz h0
      have hpos : 0 < out.length := by
        cases out with
        | nil => simp at ha
        | cons _ _ => simp
      refine ⟨out.length - 1, a, by omega, ?_, by rw [h1, hv], h2⟩
      rw [List.getElem?_append_left (by omega), ← List.getLast?_eq_getElem?]; exact ha
  · intro i a b ha hb hab
    by_cases hi : i + 1 < out.length
    · rw [List.getElem?_append_left hi] at hb
      rw [List.getElem?_append_left (by omega)] at ha
      exact h.2 i a b ha hb hab
    · have hlen : i + 1 = out.length := by
        have : i + 1 < (out ++ [k]).length := by
          rw [List.getElem?_eq_some_iff] at hb; exact hb.1
        simp at this; omega
      rw [hlen] at hb
      simp at hb
      rw [List.getElem?_append_left (by omega)] at ha
      apply hl a
      · rw [List.getLast?_eq_getElem?, ← hlen]; exact ha
      · rw [hab, ← hb, hv]

theorem encStep_ok {bits : List Bool} {s : EncSt} (h : EncInv bits s) (b : Bool)
    (h0 : bits = [] → s.cur = b) :
    ∃ s', encStep b s = .ok () s' ∧ EncInv (bits ++ [b]) s' := by
  obtain ⟨out, cur, key⟩ := s
  obtain ⟨hk, he, hc, hl, hzz, hn⟩ := h
  simp only at hk he hc hl hn h0 hzz
  by_cases hcb : cur = b
  · subst hcb
    have hk1 : (key + 1).toNat = key.toNat + 1 := by
      rw [UInt8.toNat_add]; simp; omega
    by_cases h127 : key + 1 = 127
    · have hk' : key.toNat + 1 = 127 := by rw [← hk1, h127]; rfl
      obtain ⟨k', e', hl', hv'⟩ := setBit7 127 cur (by decide)
      have hl2 : runLen k' = 127 := hl'
      refine ⟨⟨out ++ [k'], cur, 0⟩, ?_, ⟨?_, ?_, ?_, ?_, ?_, ?_⟩⟩
      · simp [encStep, M.run_bind, h127, pushKey, e']
      · show (0 : UInt8).toNat < 127; decide
      · simp only [expand_append, expand, hl2, hv', List.append_nil]
        rw [← he, List.append_assoc, ← hk', List.replicate_succ']
        simp
      · exact canon_push hc hl hv' (by omega)
      · intro b hb _
        simp at hb
        rw [← hb]; exact hl2
      · intro _ _; exact ⟨k', by simp, hv', hl2⟩
      · simp; omega
    · refine ⟨⟨out, cur, key + 1⟩, ?_, ⟨?_, ?_, ?_, ?_, ?_, ?_⟩⟩
      · simp [encStep, M.run_bind, h127]
      · show (key + 1).toNat < 127
        have : key.toNat + 1 ≠ 127 := fun hh => h127 (by
          apply UInt8.toNat_inj.mp; rw [hk1, hh]; rfl)
        omega
      · simp only [hk1]
        rw [← he, List.append_assoc, List.replicate_succ']
      · exact hc
      · exact hl
      · intro hh; simp only [hk1] at hh; omega
      · simp; omega
  · have hb : b = !cur := by cases b <;> cases cur <;> simp_all
    have hne : bits ≠ [] := fun hh => hcb (h0 hh)
    obtain ⟨k', e', hl', hv'⟩ := setBit7 key cur (by omega)
    refine ⟨⟨out ++ [k'], b, 1⟩, ?_, ⟨?_, ?_, ?_, ?_, ?_, ?_⟩⟩
    · have : ¬ ((1 : UInt8) = 127) := by decide
      simp [encStep, M.run_bind, pushKey, e', this, hb]
    · show (1 : UInt8).toNat < 127; decide
    · simp only [expand_append, expand, hl', hv', List.append_nil]
      rw [← he]; simp
    · exact canon_push hc hl hv' (fun hz => hzz (by omega) hne)
    · intro x hx hxx
      simp at hx
      subst hx
      rw [hv'] at hxx; exact absurd hxx hcb
    · intro hh; simp at hh
    · simp; omega

theorem encRead_ok {bits : List Bool} {s : EncSt} (h : EncInv bits s) (r : Res Bool) (b : Bool)
    (hr : r = .ok b) (h0 : bits = [] → s.cur = b) :
    ∃ s', encRead r s = .ok () s' ∧ EncInv (bits ++ [b]) s' := by
  obtain ⟨s', e, hi⟩ := encStep_ok h b h0
  exact ⟨s', by simp [encRead, hr, M.run_bind, e], hi⟩

theorem pushKey_final {bits : List Bool} {s : EncSt} (h : EncInv bits s) (hne : bits ≠ []) :
    ∃ s', pushKey s = .ok () s' ∧ expand s'.out = bits ∧ Canon s'.out ∧
      s'.out ≠ [] ∧ s'.out.length ≤ bits.length + 1 := by
  obtain ⟨k', e', hl', hv'⟩ := setBit7 s.key s.cur (by have := h.key; omega)
  refine ⟨{ s with out := s.out ++ [k'], key := k' }, ?_, ?_, ?_, ?_, ?_⟩
  · simp [pushKey, e']
  · simp only [expand_append, expand, hl', hv', List.append_nil]; exact h.exp
  · exact canon_push h.canon h.last hv' (fun hz => h.zero (by omega) hne)
  · simp
  · have := h.len; simp; omega

/-- prefix of length `n` of the bits produced by the nested loops -/
def bitsUpto (J : Nat) (f : Nat → Nat → Bool) (n : Nat) : List Bool :=
  (List.range n).map fun n => f (n / J) (n % J)

theorem bitsUpto_succ {J : Nat} (f : Nat → Nat → Bool) {i j : Nat} (hj : j < J) :
    bitsUpto J f (i * J + j + 1) = bitsUpto J f (i * J + j) ++ [f i j] := by
  simp only [bitsUpto, List.range_succ, List.map_append, List.map_cons, List.map_nil,
    flat_div hj, flat_mod hj]

theorem enc_loops {I J : Nat} (rd : Nat → Nat → Res Bool) (f : Nat → Nat → Bool)
    (hrd : ∀ i j, i < I → j < J → rd i j = .ok (f i j)) (hI : 0 < I) (hJ : 0 < J) :
    ∃ s, (do
        M.loop 0 I fun i => M.loop 0 J fun j => encRead (rd i j)
        pushKey : M EncSt Unit) ⟨[], f 0 0, 0⟩ = .ok () s ∧
      expand s.out = bitsUpto J f (I * J) ∧ Canon s.out ∧ s.out ≠ [] ∧ s.out.length ≤ I * J + 1 := by
  obtain ⟨s, e, hi⟩ := M.loop2_inv (body := fun i j => encRead (rd i j))
    (fun n s => EncInv (bitsUpto J f n) s ∧ (n = 0 → s.cur = f 0 0)) I J ⟨[], f 0 0, 0⟩
    ⟨⟨show (0 : UInt8).toNat < 127 by decide, rfl, ⟨by simp, by simp⟩, by simp, by simp [bitsUpto], by simp⟩, by simp⟩ (by
      intro i j t hi hj ht
      obtain ⟨s', e, h⟩ := encRead_ok ht.1 (rd i j) (f i j) (hrd i j hi hj) (by
        intro hh
        have hz : i * J + j = 0 := by
          have := congrArg List.length hh
          simpa [bitsUpto] using this
        have hj0 : j = 0 := by omega
        have hi0 : i = 0 := by
          have h1 := flat_div (i := i) hj
          rw [hz, Nat.zero_div] at h1; exact h1.symm
        subst hj0 hi0
        exact ht.2 hz)
      refine ⟨s', e, ?_, by omega⟩
      rw [bitsUpto_succ f hj]; exact h)
  have hpos : 0 < I * J := Nat.mul_pos hI hJ
  have hne : bitsUpto J f (I * J) ≠ [] := by
    intro hh
    have := congrArg List.length hh
    simp [bitsUpto] at this; omega
  obtain ⟨s', e', h1, h2, h3, h4⟩ := pushKey_final hi.1 hne
  refine ⟨s', by rw [M.run_bind_ok e]; exact e', h1, h2, h3, ?_⟩
  simpa [bitsUpto] using h4

theorem encode_eq {m : BitMatrix} (h : WF m) (hi : 0 < m.isize) (hj : 0 < m.jsize) :
    ∃ s, encode m = .ok s ∧ expand s = rowMajor m.isize m.jsize (cell m) ∧ Canon s ∧ s ≠ [] ∧
      s.length ≤ m.isize * m.jsize + 1 := by
  obtain ⟨s, e, h1, h2, h3, h4⟩ := enc_loops (I := m.isize) (J := m.jsize) (fun i j => BitMatrix.get m i j)
    (cell m) (fun i j hi hj => get_eq h hi hj) hi hj
  refine ⟨s.out, ?_, h1, h2, h3, h4⟩
  have hn : opNot m = false := by rw [opNot_eq h]; simp; omega
  simp only [encode, hn, get_eq h hi hj, Res.ok_bind, e]
  rfl

theorem flatMap_bits (str : List UInt8) :
    msbBits str = bitsUpto 8 (fun i j => (str.getD i 0).toNat.testBit (7 - j)) (str.length * 8) := by
  induction str using List.reverseRecOn with
  | nil => simp [msbBits, bitsUpto]
  | append_singleton l x ih =>
    have e1 : msbBits (l ++ [x]) = msbBits l ++ msbBits [x] := by simp [msbBits]
    rw [e1, ih]
    have e2 : bitsUpto 8 (fun i j => (l.getD i 0).toNat.testBit (7 - j)) (l.length * 8) =
        bitsUpto 8 (fun i j => ((l ++ [x]).getD i 0).toNat.testBit (7 - j)) (l.length * 8) := by
      unfold bitsUpto
      apply List.map_congr_left
      intro n hn
      have : n / 8 < l.length := by
        have := List.mem_range.mp hn; omega
      simp only [List.getD_eq_getElem?_getD, List.getElem?_append_left this]
    rw [e2]
    have e3 : (l ++ [x]).length * 8 = l.length * 8 + 7 + 1 := by simp; omega
    have hx : (l ++ [x]).getD l.length 0 = x := by simp [List.getD_eq_getElem?_getD]
    rw [e3]
    generalize hf : (fun i j => ((l ++ [x]).getD i 0).toNat.testBit (7 - j)) = f
    have hfx : ∀ j, f l.length j = x.toNat.testBit (7 - j) := by intro j; rw [← hf]; simp only [hx]
    have st : ∀ j, j < 8 → bitsUpto 8 f (l.length * 8 + (j + 1)) =
        bitsUpto 8 f (l.length * 8 + j) ++ [x.toNat.testBit (7 - j)] := by
      intro j hj
      rw [← hfx j]; exact bitsUpto_succ f hj
    rw [show l.length * 8 + 7 + 1 = l.length * 8 + (7 + 1) by omega, st 7 (by omega), st 6 (by omega),
      st 5 (by omega), st 4 (by omega), st 3 (by omega), st 2 (by omega), st 1 (by omega), st 0 (by omega)]
    simp [msbBits]

theorem byteEncode_eq {str : List UInt8} (hs : str ≠ []) :
    ∃ s, byteEncode str = .ok s ∧ expand s = msbBits str ∧ Canon s ∧ s ≠ [] ∧
      s.length ≤ str.length * 8 + 1 := by
  have hl : 0 < str.length := List.length_pos_of_ne_nil hs
  obtain ⟨s, e, h1, h2, h3, h4⟩ := enc_loops (I := str.length) (J := 8)
    (fun i k => (do let b ← Res.idx str i; getBit b (7 - k) : Res Bool))
    (fun i j => (str.getD i 0).toNat.testBit (7 - j)) (by
      intro i j hi hj
      rw [Res.idx_of_lt _ _ hi, Res.ok_bind, getBit_eq _ _ (by omega)]
      simp [List.getD_eq_getElem?_getD, hi]) hl (by omega)
  refine ⟨s.out, ?_, by rw [h1, flatMap_bits], h2, h3, h4⟩
  have e0 : Res.idx str 0 = .ok (str.getD 0 0) := by
    rw [Res.idx_of_lt _ _ hl]; simp [List.getD_eq_getElem?_getD, hl]
  simp only [byteEncode, e0, Res.ok_bind, getBit_eq _ 7 (by omega)]
  rw [show (str.getD 0 0).toNat.testBit 7 = (str.getD 0 0).toNat.testBit (7 - 0) from rfl, e]

/-! decoder -/

/-- After consuming the bits `E` (of which only the first `r*c` matter). -/
structure DecInv (r c : Nat) (E : List Bool) (s : DecSt) : Prop where
  wf : WF s.m
  d1 : s.m.isize = r
  d2 : s.m.jsize = c
  j_lt : s.j < c
  pos : s.k * c + s.j = min E.length (r * c)
  cells : ∀ i j, i < r → j < c → cell s.m i j = E.getD (i * c + j) false

theorem decBody_ok {r c : Nat} {E : List Bool} {s : DecSt} (h : DecInv r c E s) (v : Bool)
    (hp : E.length < r * c) :
    ∃ s', decBody v s = .ok () s' ∧ DecInv r c (E ++ [v]) s' := by
  obtain ⟨m, j, k⟩ := s
  obtain ⟨w, d1, d2, hj, hpos, hc⟩ := h
  simp only at w d1 d2 hj hpos hc
  have hpe : k * c + j = E.length := by rw [hpos]; omega
  have hk : k < r := by
    by_contra hh
    have := Nat.mul_le_mul_right c (show r ≤ k by omega)
    omega
  obtain ⟨m', e, w', s1, s2, hcell⟩ := set_ok w (i := k) (j := j) v (by omega) (by omega)
  have cells' : ∀ i j', i < r → j' < c → cell m' i j' = (E ++ [v]).getD (i * c + j') false := by
    intro i j' hi hj'
    rw [hcell]
    by_cases heq : i = k ∧ j' = j
    · obtain ⟨rfl, rfl⟩ := heq
      simp [List.getD_eq_getElem?_getD, hpe]
    · have hne : i * c + j' ≠ E.length := by
        intro hh
        rw [← hpe] at hh
        exact heq (flat_inj hj' hj hh)
      simp only [heq, if_false, hc i j' hi hj']
      simp only [List.getD_eq_getElem?_getD]
      by_cases hlt : i * c + j' < E.length
      · rw [List.getElem?_append_left hlt]
      · rw [List.getElem?_eq_none (by omega), List.getElem?_eq_none (by simp; omega)]
  have hmin : min (E ++ [v]).length (r * c) = E.length + 1 := by simp; omega
  by_cases hw : j + 1 = c
  · refine ⟨⟨m', 0, k + 1⟩, ?_, ⟨w', by simp only; omega, by simp only; omega, by simp only; omega, ?_, cells'⟩⟩
    · simp only [decBody, e]
      rw [if_pos (by simp only [s2, d2]; exact hw)]
    · rw [hmin]; simp only [Nat.add_mul]; omega
  · refine ⟨⟨m', j + 1, k⟩, ?_, ⟨w', by simp only; omega, by simp only; omega, by simp only; omega, ?_, cells'⟩⟩
    · simp only [decBody, e]
      rw [if_neg (by simp only [s2, d2]; exact hw)]
    · rw [hmin]; simp only; omega

theorem decBody_full {r c : Nat} {E : List Bool} {s : DecSt} (h : DecInv r c E s) (v : Bool)
    (hp : r * c ≤ E.length) : decBody v s = .throw .runtimeError s := by
  have hk : r ≤ s.k := by
    by_contra hh
    have := flat_lt (show s.k < r by omega) h.j_lt
    have := h.pos
    omega
  have : BitMatrix.set s.k s.j v s.m = .throw .runtimeError s.m := by
    simp [BitMatrix.set, h.d1, hk]
  simp [decBody, this]

theorem DecInv.full {r c : Nat} {E : List Bool} {s : DecSt} (h : DecInv r c E s) (F : List Bool)
    (hp : r * c ≤ E.length) : DecInv r c (E ++ F) s := by
  refine ⟨h.wf, h.d1, h.d2, h.j_lt, ?_, ?_⟩
  · rw [h.pos]; simp; omega
  · intro i j hi hj
    rw [h.cells i j hi hj]
    have := flat_lt hi hj
    simp only [List.getD_eq_getElem?_getD]
    rw [List.getElem?_append_left (by omega)]

theorem decRun {r c : Nat} (v : Bool) : ∀ (n st : Nat) (E : List Bool) (s : DecSt), DecInv r c E s →
    ∃ s', (M.loop st n (fun _ => decBody v) s = .ok () s' ∨
        M.loop st n (fun _ => decBody v) s = .throw .runtimeError s') ∧
      DecInv r c (E ++ List.replicate n v) s' := by
  intro n
  induction n with
  | zero => intro st E s h; exact ⟨s, .inl rfl, by simpa using h⟩
  | succ n ih =>
    intro st E s h
    by_cases hp : E.length < r * c
    · obtain ⟨t, e, ht⟩ := decBody_ok h v hp
      obtain ⟨s', e', hs'⟩ := ih (st + 1) _ _ ht
      refine ⟨s', ?_, ?_⟩
      · simp only [M.loop]; rw [M.run_bind_ok e]; exact e'
      · rw [List.replicate_succ]; simpa using hs'
    · refine ⟨s, .inr ?_, h.full _ (by omega)⟩
      simp only [M.loop]; rw [M.run_bind_throw (decBody_full h v (by omega))]

theorem decChar_ok {r c : Nat} {E : List Bool} {s : DecSt} (h : DecInv r c E s) (b : UInt8) :
    ∃ s', decChar b s = .ok () s' ∧ DecInv r c (E ++ expand [b]) s' := by
  obtain ⟨k, ek, hk⟩ := clear7 b
  obtain ⟨s', e, h'⟩ := decRun (runVal b) k.toNat 0 E s h
  refine ⟨s', ?_, by simpa [expand, hk] using h'⟩
  simp only [decChar, M.tryCatch, getBit7, ek, M.run_bind, M.run_lift_ok]
  rcases e with e | e <;> simp [e]

theorem forChars_ok {r c : Nat} : ∀ (str : List UInt8) (E : List Bool) (s : DecSt), DecInv r c E s →
    ∃ s', forChars decChar str s = .ok () s' ∧ DecInv r c (E ++ expand str) s' := by
  intro str
  induction str with
  | nil => intro E s h; exact ⟨s, rfl, by simpa [expand] using h⟩
  | cons x xs ih =>
    intro E s h
    obtain ⟨t, e, ht⟩ := decChar_ok h x
    obtain ⟨s', e', h'⟩ := ih _ _ ht
    refine ⟨s', by simp only [forChars]; rw [M.run_bind_ok e]; exact e', ?_⟩
    rw [List.append_assoc, ← expand_append] at h'
    exact h'

/-- with no columns every `Set` throws and nothing changes -/
theorem decChar_nocol {s : DecSt} (h : s.m.jsize ≤ s.j) (b : UInt8) : decChar b s = .ok () s := by
  have hb : ∀ v, decBody v s = .throw .runtimeError s := by
    intro v
    have : BitMatrix.set s.k s.j v s.m = .throw .runtimeError s.m := by
      simp [BitMatrix.set, h]
    simp [decBody, this]
  obtain ⟨k, ek, hk⟩ := clear7 b
  simp only [decChar, M.tryCatch, getBit7, ek, M.run_bind, M.run_lift_ok]
  cases hn : k.toNat with
  | zero => simp [M.loop]
  | succ n => simp [M.loop, M.run_bind, hb]

theorem forChars_nocol {s : DecSt} (h : s.m.jsize ≤ s.j) : ∀ str, forChars decChar str s = .ok () s := by
  intro str
  induction str with
  | nil => rfl
  | cons x xs ih => simp only [forChars]; rw [M.run_bind_ok (decChar_nocol h x)]; exact ih

theorem decodeMatrix_eq {str : List UInt8} (hs : str ≠ []) (r c : UInt32) :
    ∃ m, decodeMatrix Alloc.ok str r c = .ok m ∧ WF m ∧ m.isize = r.toNat ∧ m.jsize = c.toNat ∧
      ∀ i j, i < r.toNat → j < c.toNat → cell m i j = (expand str).getD (i * c.toNat + j) false := by
  have hn := new_eq (al := Alloc.ok) (r := r.toNat) (c := c.toNat) rfl
  by_cases hc : c.toNat = 0
  · refine ⟨BitMatrix.new Alloc.ok r.toNat c.toNat, ?_, ?_, ?_, ?_, by omega⟩
    · simp only [decodeMatrix, hs, if_false]
      rw [forChars_nocol]
      simp only [hn]; omega
    · rw [hn]; exact zeroMat_wf _ _
    · rw [hn]
    · rw [hn]
  · have h0 : DecInv r.toNat c.toNat [] ⟨BitMatrix.new Alloc.ok r.toNat c.toNat, 0, 0⟩ := by
      refine ⟨?_, ?_, ?_, by simp only; omega, by simp, ?_⟩
      · simp only [hn]; exact zeroMat_wf _ _
      · simp only [hn]
      · simp only [hn]
      · intro i j _ _; simp only [hn]; rw [zeroMat_cell]; simp
    obtain ⟨s, e, h⟩ := forChars_ok str _ _ h0
    refine ⟨s.m, ?_, h.wf, h.d1, h.d2, by simpa using h.cells⟩
    simp only [decodeMatrix, hs, if_false, e]

theorem decodeMatrix_allocFail {al : Alloc} {str : List UInt8} (r c : UInt32)
    (h : BitMatrix.new al r.toNat c.toNat = BitMatrix.empty) :
    decodeMatrix al str r c = .ok BitMatrix.empty := by
  by_cases hs : str = []
  · simp [decodeMatrix, hs]
  · simp only [decodeMatrix, hs, if_false, h]
    rw [forChars_nocol (s := ⟨BitMatrix.empty, 0, 0⟩) (by simp [BitMatrix.empty])]

theorem byteDecode_eq (str : List UInt8) : byteDecode str = .ok [] := by
  have hb : ∀ c t, byteDecodeChar c t = .ok () t := by
    intro c t
    obtain ⟨k, ek, hk⟩ := clear7 c
    obtain ⟨z, ez, _⟩ := setBit_ok 0 7 (runVal c) (by omega)
    simp only [byteDecodeChar, getBit7, ek, M.run_bind, M.run_lift_ok]
    have : ∀ n st, M.loop st n (fun _ => (do
        let _ ← M.lift (setBit 0 7 (runVal c))
        pure () : M (List UInt8) Unit)) t = .ok () t := by
      intro n
      induction n with
      | zero => intro st; rfl
      | succ n ih =>
        intro st
        rw [ez] at ih ⊢
        simp only [M.loop, M.run_bind, M.run_lift_ok, M.run_pure]
        exact ih _
    exact this _ _
  have hf : ∀ l t, forChars byteDecodeChar l t = .ok () t := by
    intro l t
    induction l with
    | nil => rfl
    | cons x xs ih => simp only [forChars]; rw [M.run_bind_ok (hb x t)]; exact ih
  unfold byteDecode
  split
  · rfl
  · rw [hf]; rfl

end Verif.Rle
