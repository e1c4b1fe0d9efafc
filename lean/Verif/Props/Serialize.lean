import Verif.Props.BitMatrix
import Verif.Proofs.Serialize

/-! Properties C11–C14: serialisation, deserialisation and `FromString` of `BitMatrix`. -/

namespace Verif.Props
open Verif BitMatrix
open Verif.Spec (leVal lsbBit)

/-- **C12** Format of `Serialize`: `8`, eight little-endian bytes of the row count, `8`, eight of the
column count, then ⌊rows·cols/8⌋ bytes whose bits, least significant first, are the cells row by row. -/
theorem C12_format (m : BitMatrix) (hm : Built m) (h1 : 0 < m.isize) (h2 : 0 < m.jsize) :
    ∃ rs cs p, serialize m = .ok (8 :: rs ++ 8 :: cs ++ p) ∧
      rs.length = 8 ∧ leVal rs = m.isize ∧ cs.length = 8 ∧ leVal cs = m.jsize ∧
      p.length = m.isize * m.jsize / 8 ∧
      ∀ n, n < 8 * p.length → BitMatrix.get m (n / m.jsize) (n % m.jsize) = .ok (lsbBit p n) := by
  obtain ⟨w, f1, f2⟩ := hm.inv
  obtain ⟨p, e, hl, hb⟩ := serialize_eq w h1 h2
  refine ⟨le64 m.isize, le64 m.jsize, p, e, le64_length _, leVal_le64 _ f1, le64_length _, leVal_le64 _ f2,
    hl, ?_⟩
  intro n hn
  have hlt : n < m.isize * m.jsize := by omega
  have hi : n / m.jsize < m.isize := Nat.div_lt_of_lt_mul (by rw [Nat.mul_comm]; exact hlt)
  rw [get_eq w hi (Nat.mod_lt _ h2), hb n hn]
  rfl

/-- **C11/C12** `Serialize` of a matrix without cells throws `runtime_error`. -/
theorem C12_invalid_throws (m : BitMatrix) (hm : Built m) (h : m.isize = 0 ∨ m.jsize = 0) :
    serialize m = .throw .runtimeError := by
  have : opNot m = true := by rw [opNot_eq hm.inv.1]; simpa using h
  simp [serialize, this]

/-- **C13** `DeserializeMatrix` of every buffer: the outcome is determined by the first byte and the
buffer length.  `r`, `c` are the announced dimensions. -/
theorem C13_deserialize (buf : List UInt8) :
    (buf = [] → deserialize Alloc.ok buf = .throw .invalidArgument) ∧
    ∀ b0 rest, buf = b0 :: rest →
      let k := b0.toNat
      let r := leVal ((buf.drop 1).take k)
      let c := leVal ((buf.drop (2 + k)).take k)
      let payload := buf.drop (2 + 2 * k)
      (8 < k ∨ buf.length < 2 + 2 * k ∨ 8 * payload.length < r * c → deserialize Alloc.ok buf = .ub) ∧
      (k ≤ 8 → 2 + 2 * k ≤ buf.length → r * c ≤ 8 * payload.length →
        ∃ m, deserialize Alloc.ok buf = .ok m ∧ m.isize = r ∧ m.jsize = c ∧
          ∀ i j, i < r → j < c → BitMatrix.get m i j = .ok (lsbBit payload (i * c + j))) := by
  refine ⟨by rintro rfl; rfl, ?_⟩
  intro b0 rest hb k r c payload
  obtain ⟨h1, h2, h3⟩ := deserialize_cases buf b0 rest hb
  constructor
  · rintro (h | h | h)
    · exact h1 h
    · exact h2 h
    · by_cases hk : 8 < b0.toNat
      · exact h1 hk
      · by_cases hl : buf.length < 2 + 2 * b0.toNat
        · exact h2 hl
        · exact (h3 (by omega) (by omega)).1 h
  · intro hk hl hs
    obtain ⟨m, e, w, d1, d2, hc⟩ := (h3 hk hl).2 hs
    refine ⟨m, e, d1, d2, ?_⟩
    intro i j hi hj
    rw [get_eq w (by rw [d1]; exact hi) (by rw [d2]; exact hj), hc i j hi hj]

/-- **C13** the second length byte never matters. -/
theorem C13_second_length_ignored (b0 x y : UInt8) (rs rest : List UInt8) (h : rs.length = b0.toNat) :
    deserialize Alloc.ok (b0 :: rs ++ x :: rest) = deserialize Alloc.ok (b0 :: rs ++ y :: rest) := by
  have key : ∀ z w : UInt8, ∀ m, deserialize Alloc.ok (b0 :: rs ++ z :: rest) = .ok m →
      deserialize Alloc.ok (b0 :: rs ++ w :: rest) = .ok m := by
    intro z w m e
    by_cases hk : 8 < b0.toNat
    · rw [(deserialize_cases (b0 :: rs ++ z :: rest) b0 (rs ++ z :: rest) rfl).1 hk] at e; simp at e
    · have hl1 : (b0 :: rs ++ z :: rest).length = 2 + b0.toNat + rest.length := by simp [h]; omega
      have hl2 : (b0 :: rs ++ w :: rest).length = 2 + b0.toNat + rest.length := by simp [h]; omega
      have t1 : ∀ v : UInt8, ((b0 :: rs ++ v :: rest).drop 1).take b0.toNat = rs := by
        intro v; rw [← h]; simp
      have t2 : ∀ v : UInt8, (b0 :: rs ++ v :: rest).drop (2 + b0.toNat) = rest := by
        intro v; rw [← h, show 2 + rs.length = 1 + (rs.length + 1) by omega]
        simp only [List.cons_append]
        rw [Nat.add_comm 1, List.drop_succ_cons, ← List.drop_drop, List.drop_left]; rfl
      have t3 : ∀ v : UInt8, (b0 :: rs ++ v :: rest).drop (2 + 2 * b0.toNat) = rest.drop b0.toNat := by
        intro v; rw [show 2 + 2 * b0.toNat = (2 + b0.toNat) + b0.toNat by omega, ← List.drop_drop, t2]
      have unf : ∀ v : UInt8, deserialize Alloc.ok (b0 :: rs ++ v :: rest) = (do
          let (iSize, it1) ← readSize (b0 :: rs ++ v :: rest) b0.toNat 1
          let _colByteCnt ← Res.idx (b0 :: rs ++ v :: rest) it1
          let (jSize, it2) ← readSize (b0 :: rs ++ v :: rest) b0.toNat (it1 + 1)
          match (M.loop 0 iSize fun i => M.loop 0 jSize fun j => desStep (b0 :: rs ++ v :: rest) i j)
              ⟨new Alloc.ok iSize jSize, it2, 0⟩ with
          | .ok _ s => .ok s.m
          | .throw e _ => .throw e
          | .ub => .ub) := fun v => rfl
      by_cases hl : 2 + b0.toNat + rest.length < 2 + 2 * b0.toNat
      · rw [(deserialize_cases (b0 :: rs ++ z :: rest) b0 (rs ++ z :: rest) rfl).2.1 (by rw [hl1]; exact hl)] at e; simp at e
      · have body : ∀ v : UInt8, deserialize Alloc.ok (b0 :: rs ++ v :: rest) =
            match (M.loop 0 (leVal rs) fun i => M.loop 0 (leVal (rest.take b0.toNat)) fun j =>
                desStep (b0 :: rs ++ v :: rest) i j)
              ⟨new Alloc.ok (leVal rs) (leVal (rest.take b0.toNat)), 2 + 2 * b0.toNat, 0⟩ with
            | .ok _ s => .ok s.m
            | .throw e _ => .throw e
            | .ub => .ub := by
          intro v
          have hlv : (b0 :: rs ++ v :: rest).length = 2 + b0.toNat + rest.length := by simp [h]; omega
          rw [unf, readSize_eq _ _ _ (by omega) (by omega), t1]
          simp only [Res.ok_bind]
          rw [Res.idx_of_lt _ _ (by omega)]
          simp only [Res.ok_bind]
          rw [readSize_eq _ _ _ (by omega) (by omega), show 1 + b0.toNat + 1 = 2 + b0.toNat by omega, t2,
            show 2 + b0.toNat + b0.toNat = 2 + 2 * b0.toNat by omega]
          rfl
        rw [body] at e ⊢
        have cong : (M.loop 0 (leVal rs) fun i => M.loop 0 (leVal (rest.take b0.toNat)) fun j =>
              desStep (b0 :: rs ++ w :: rest) i j)
              ⟨new Alloc.ok (leVal rs) (leVal (rest.take b0.toNat)), 2 + 2 * b0.toNat, 0⟩ =
            (M.loop 0 (leVal rs) fun i => M.loop 0 (leVal (rest.take b0.toNat)) fun j =>
              desStep (b0 :: rs ++ z :: rest) i j)
              ⟨new Alloc.ok (leVal rs) (leVal (rest.take b0.toNat)), 2 + 2 * b0.toNat, 0⟩ := by
          have one : ∀ i j (t : DesSt), 2 + b0.toNat ≤ t.it →
              desStep (b0 :: rs ++ w :: rest) i j t = desStep (b0 :: rs ++ z :: rest) i j t := by
            intro i j t ht
            have : Res.idx (b0 :: rs ++ w :: rest) t.it = Res.idx (b0 :: rs ++ z :: rest) t.it := by
              obtain ⟨d, hd⟩ : ∃ d, t.it = (2 + b0.toNat) + d := ⟨t.it - (2 + b0.toNat), by omega⟩
              simp only [Res.idx, hd]
              rw [← List.getElem?_drop, ← List.getElem?_drop, t2, t2]
            simp only [desStep, this]
          have pres : ∀ i j (t t' : DesSt), 2 + b0.toNat ≤ t.it →
              desStep (b0 :: rs ++ z :: rest) i j t = .ok () t' → 2 + b0.toNat ≤ t'.it := by
            intro i j t t' ht he
            simp only [desStep] at he
            split at he <;> try simp at he
            split at he <;> try simp at he
            split at he <;> try simp at he
            split at he <;> (injection he with _ he; subst he; simp only; omega)
          have loopPres : ∀ (n st i : Nat) (t t' : DesSt), 2 + b0.toNat ≤ t.it →
              M.loop st n (fun j => desStep (b0 :: rs ++ z :: rest) i j) t = .ok () t' →
              2 + b0.toNat ≤ t'.it := by
            intro n
            induction n with
            | zero => intro st i t t' ht he; injection he with _ he; subst he; exact ht
            | succ n ih =>
              intro st i t t' ht he
              simp only [M.loop, M.run_bind] at he
              split at he
              · rename_i t1 he1
                exact ih _ _ _ _ (pres _ _ _ _ ht he1) he
              · simp at he
              · simp at he
          apply loop_congr (Inv := fun t : DesSt => 2 + b0.toNat ≤ t.it)
          · simp only; omega
          · intro i t _ _ ht
            apply loop_congr (Inv := fun t : DesSt => 2 + b0.toNat ≤ t.it)
            · exact ht
            · intro j u _ _ hu; exact one i j u hu
            · intro j u u' _ _ hu he; exact pres _ _ _ _ hu he
          · intro i t t' _ _ ht he
            exact loopPres _ _ _ _ _ ht he
        rw [cong]; exact e
  have nothrow : ∀ z : UInt8, ∀ e, deserialize Alloc.ok (b0 :: rs ++ z :: rest) ≠ .throw e := by
    intro z e he
    obtain ⟨h1, h2, h3⟩ := deserialize_cases (b0 :: rs ++ z :: rest) b0 (rs ++ z :: rest) rfl
    by_cases hk : 8 < b0.toNat
    · rw [h1 hk] at he; simp at he
    · by_cases hl : (b0 :: rs ++ z :: rest).length < 2 + 2 * b0.toNat
      · rw [h2 hl] at he; simp at he
      · obtain ⟨p, q⟩ := h3 (by omega) (by omega)
        rcases Nat.lt_or_ge (8 * ((b0 :: rs ++ z :: rest).drop (2 + 2 * b0.toNat)).length)
          (leVal (((b0 :: rs ++ z :: rest).drop 1).take b0.toNat) *
            leVal (((b0 :: rs ++ z :: rest).drop (2 + b0.toNat)).take b0.toNat)) with hh | hh
        · rw [p hh] at he; simp at he
        · obtain ⟨m, hm, _⟩ := q hh
          rw [hm] at he; simp at he
  cases hx : deserialize Alloc.ok (b0 :: rs ++ x :: rest) with
  | ok m => exact (key x y m hx).symm
  | throw e => exact absurd hx (nothrow x e)
  | ub =>
    cases hy : deserialize Alloc.ok (b0 :: rs ++ y :: rest) with
    | ok m => rw [key y x m hy] at hx; simp at hx
    | throw e => exact absurd hy (nothrow y e)
    | ub => rfl

/-- **C11** Round trip: it holds exactly when rows·cols is a multiple of 8; otherwise deserialising the
output is undefined behaviour. -/
theorem C11_roundtrip (m : BitMatrix) (hm : Built m) (h1 : 0 < m.isize) (h2 : 0 < m.jsize) :
    ∃ buf, serialize m = .ok buf ∧
      (m.isize * m.jsize % 8 = 0 → ∃ m', deserialize Alloc.ok buf = .ok m' ∧ SameBits m m') ∧
      (m.isize * m.jsize % 8 ≠ 0 → deserialize Alloc.ok buf = .ub) := by
  obtain ⟨w, f1, f2⟩ := hm.inv
  obtain ⟨p, e, hl, hb⟩ := serialize_eq w h1 h2
  have hbuf : (8 :: le64 m.isize ++ 8 :: le64 m.jsize ++ p : List UInt8) =
    (8 : UInt8) :: (le64 m.isize ++ 8 :: le64 m.jsize ++ p) := rfl
  refine ⟨_, e, ?_⟩
  have l1 := le64_length m.isize
  have l2 := le64_length m.jsize
  have hlen : (8 :: le64 m.isize ++ 8 :: le64 m.jsize ++ p : List UInt8).length = 18 + p.length := by
    simp [l1, l2]; omega
  have hr : leVal (((8 :: le64 m.isize ++ 8 :: le64 m.jsize ++ p : List UInt8).drop 1).take 8) = m.isize := by
    have : ((8 :: le64 m.isize ++ 8 :: le64 m.jsize ++ p : List UInt8).drop 1).take 8 = le64 m.isize := by
      simp only [List.cons_append, List.append_assoc, List.drop_succ_cons, List.drop_zero]
      rw [← l1, List.take_left]
    rw [this, leVal_le64 _ f1]
  have hd10 : (8 :: le64 m.isize ++ 8 :: le64 m.jsize ++ p : List UInt8).drop 10 = le64 m.jsize ++ p := by
    have : (8 :: le64 m.isize ++ 8 :: le64 m.jsize ++ p : List UInt8) =
      (8 :: le64 m.isize ++ [8]) ++ (le64 m.jsize ++ p) := by simp
    rw [this]
    exact List.drop_left' (by simp [l1])
  have hc : leVal (((8 :: le64 m.isize ++ 8 :: le64 m.jsize ++ p : List UInt8).drop (2 + 8)).take 8) =
      m.jsize := by
    rw [hd10, ← l2, List.take_left, leVal_le64 _ f2]
  have hp : (8 :: le64 m.isize ++ 8 :: le64 m.jsize ++ p : List UInt8).drop (2 + 2 * 8) = p := by
    rw [show 2 + 2 * 8 = 10 + 8 by rfl, ← List.drop_drop, hd10]
    exact List.drop_left' l2
  obtain ⟨_, _, h3⟩ := deserialize_cases _ (8 : UInt8) _ hbuf
  have h88 : (8 : UInt8).toNat = 8 := rfl
  simp only [h88] at h3
  have h4 := h3 (Nat.le_refl 8) (by omega)
  rw [hr, hc, hp] at h4
  constructor
  · intro h0
    obtain ⟨m', e', w', d1, d2, hcell⟩ := h4.2 (by omega)
    refine ⟨m', e', d1.symm, d2.symm, ?_⟩
    intro i j hi hj
    rw [get_eq w hi hj, get_eq w' (by omega) (by omega), hcell i j hi hj, hb _ (by
      have := flat_lt hi hj; omega)]
    unfold flat
    rw [flat_div hj, flat_mod hj]
  · intro h0
    exact h4.1 (by omega)

/-- **C12** injectivity: matrices with a multiple of 8 cells and the same serialisation are the same. -/
theorem C12_injective (a b : BitMatrix) (ha : Built a) (hb : Built b) (a1 : 0 < a.isize) (a2 : 0 < a.jsize)
    (b1 : 0 < b.isize) (b2 : 0 < b.jsize) (h8 : a.isize * a.jsize % 8 = 0)
    (h : serialize a = serialize b) : SameBits a b := by
  obtain ⟨buf, e, r, _⟩ := C11_roundtrip a ha a1 a2
  obtain ⟨buf', e', r', u'⟩ := C11_roundtrip b hb b1 b2
  rw [e, e'] at h
  injection h with h
  subst h
  obtain ⟨m', hm', s⟩ := r h8
  by_cases hb8 : b.isize * b.jsize % 8 = 0
  · obtain ⟨m'', hm'', s'⟩ := r' hb8
    rw [hm'] at hm''
    injection hm'' with hm''
    subst hm''
    refine ⟨by rw [s.1, s'.1], by rw [s.2.1, s'.2.1], ?_⟩
    intro i j hi hj
    rw [s.2.2 i j hi hj, s'.2.2 i j (by rw [s'.1, ← s.1]; exact hi) (by rw [s'.2.1, ← s.2.1]; exact hj)]
  · rw [u' hb8] at hm'; simp at hm'

/-- **C14** `FromString`: throws unless the length is the 32-bit product; otherwise it is UB if the string
is shorter than ⌈r/8⌉·⌈c/8⌉ and else fills only the first ⌈r/8⌉ rows. -/
theorem C14_fromString (s : List UInt8) (r c : Nat) :
    (s.length ≠ (r * c) % 2 ^ 32 → fromString Alloc.ok s r c = .throw .invalidArgument) ∧
    (s.length = (r * c) % 2 ^ 32 → s.length < (r + 7) / 8 * ((c + 7) / 8) →
      fromString Alloc.ok s r c = .ub) ∧
    (s.length = (r * c) % 2 ^ 32 → (r + 7) / 8 * ((c + 7) / 8) ≤ s.length →
      ∃ m, fromString Alloc.ok s r c = .ok m ∧ m.isize = r ∧ m.jsize = c ∧
        ∀ i j, i < r → j < c → BitMatrix.get m i j = .ok
          (if i < (r + 7) / 8 then (s.getD (i * ((c + 7) / 8) + j / 8) 0).toNat.testBit (7 - j % 8)
           else false)) := by
  refine ⟨?_, ?_, ?_⟩
  · intro h; unfold fromString; rw [if_pos h]
  · intro h hl
    exact (fromString_cases s r c h).1 (by rw [ceil8_eq, ceil8_eq]; exact hl)
  · intro h hl
    obtain ⟨m, e, w, d1, d2, hc⟩ := (fromString_cases s r c h).2 (by rw [ceil8_eq, ceil8_eq]; exact hl)
    refine ⟨m, e, d1, d2, ?_⟩
    intro i j hi hj
    rw [get_eq w (by omega) (by omega), hc i j hi hj, ceil8_eq, ceil8_eq]

/-- **C14** without 32-bit wrap-around an accepted string is never read out of bounds. -/
theorem C14_no_wrap_safe (s : List UInt8) (r c : Nat) (h : r * c < 2 ^ 32) :
    fromString Alloc.ok s r c ≠ .ub := by
  by_cases hl : s.length = (r * c) % 2 ^ 32
  · rw [Nat.mod_eq_of_lt h] at hl
    have hle : (r + 7) / 8 * ((c + 7) / 8) ≤ r * c := Nat.mul_le_mul (by omega) (by omega)
    obtain ⟨m, e, _⟩ := (C14_fromString s r c).2.2 (by rw [Nat.mod_eq_of_lt h]; exact hl) (by omega)
    rw [e]; simp
  · rw [(C14_fromString s r c).1 hl]; simp

/-- **C14** the wrapping case: 65536×65536 with the empty string passes the check and is UB. -/
theorem C14_wrap_ub : fromString Alloc.ok [] 65536 65536 = .ub :=
  (C14_fromString [] 65536 65536).2.1 (by norm_num) (by norm_num)

/-- **C14** not a way to transfer a whole matrix: from 2 rows on, the last row is always zero whatever the
string contains. -/
theorem C14_lost_rows (s : List UInt8) (r c : Nat) (m : BitMatrix) (hr : 2 ≤ r)
    (e : fromString Alloc.ok s r c = .ok m) (j : Nat) (hj : j < c) :
    BitMatrix.get m (r - 1) j = .ok false := by
  by_cases hl : s.length = (r * c) % 2 ^ 32
  · rcases Nat.lt_or_ge s.length ((r + 7) / 8 * ((c + 7) / 8)) with h | h
    · rw [(C14_fromString s r c).2.1 hl h] at e; simp at e
    · obtain ⟨m', e', _, _, hg⟩ := (C14_fromString s r c).2.2 hl h
      rw [e] at e'; injection e' with e'; subst e'
      rw [hg (r - 1) j (by omega) hj, if_neg (by omega)]
  · rw [(C14_fromString s r c).1 hl] at e; simp at e

example : ∃ m, Built m ∧ m.isize = 3 ∧ m.jsize = 11 ∧ m.isize * m.jsize % 8 ≠ 0 :=
  ⟨_, .new 3 11 (by decide) (by decide), rfl, rfl, by decide⟩
example : ∃ m, Built m ∧ m.isize = 4 ∧ m.jsize = 10 ∧ m.isize * m.jsize % 8 = 0 ∧
    BitMatrix.get m 3 9 = .ok true :=
  ⟨_, .set (.new 4 10 (by decide) (by decide)) (i := 3) (j := 9) (v := true) rfl, rfl, rfl, by decide, by decide⟩
example : fromString Alloc.ok [0xA5, 0x80, 1, 2] 2 2 = .ok ⟨[[0xA5], [0]], 2, 2⟩ := by decide

end Verif.Props
