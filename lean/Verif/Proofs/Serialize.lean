import Verif.Proofs.BitMatrix2
import Verif.Spec.Serialize
import Mathlib.Tactic.Ring

namespace Verif
open BitMatrix ByteHandler Spec

/-- Nested loops with an invariant on the flattened index `i*J + j`. -/
theorem M.loop2_inv {σ : Type} {body : Nat → Nat → M σ Unit} (Inv : Nat → σ → Prop) (I J : Nat) (s : σ)
    (h0 : Inv 0 s)
    (step : ∀ i j t, i < I → j < J → Inv (i * J + j) t → ∃ t', body i j t = .ok () t' ∧ Inv (i * J + j + 1) t') :
    ∃ s', M.loop 0 I (fun i => M.loop 0 J (fun j => body i j)) s = .ok () s' ∧ Inv (I * J) s' := by
  have := M.loop_inv (body := fun i => M.loop 0 J (fun j => body i j)) (fun i t => Inv (i * J) t) I 0 s
    (by simpa using h0) (by
      intro i t _ hi ht
      obtain ⟨t', e, h⟩ := M.loop_inv (body := fun j => body i j) (fun j t => Inv (i * J + j) t) J 0 t
        (by simpa using ht) (by
          intro j u _ hj hu
          obtain ⟨u', e, h⟩ := step i j u (by omega) (by omega) hu
          exact ⟨u', e, by rw [← Nat.add_assoc]; exact h⟩)
      refine ⟨t', e, ?_⟩
      rw [Nat.add_mul, Nat.one_mul]; simpa using h)
  simpa using this

/-- Nested loops reaching an undefined iteration at flattened index `k`. -/
theorem M.loop2_ub {σ : Type} {body : Nat → Nat → M σ Unit} (Inv : Nat → σ → Prop) (I J k : Nat) (s : σ)
    (h0 : Inv 0 s) (hk : k < I * J)
    (step : ∀ i j t, i < I → j < J → i * J + j < k → Inv (i * J + j) t →
      ∃ t', body i j t = .ok () t' ∧ Inv (i * J + j + 1) t')
    (hub : ∀ t, Inv k t → body (k / J) (k % J) t = .ub) :
    M.loop 0 I (fun i => M.loop 0 J (fun j => body i j)) s = .ub := by
  have hJ : 0 < J := by rcases Nat.eq_zero_or_pos J with h | h; (subst h; omega); exact h
  have hkI : k / J < I := Nat.div_lt_of_lt_mul (by rw [Nat.mul_comm]; exact hk)
  have hkJ : k % J < J := Nat.mod_lt _ hJ
  have hdm : k / J * J + k % J = k := Nat.div_add_mod' k J
  -- split the outer loop at row k / J
  have aux : ∀ (n start : Nat) (s : σ), start ≤ k / J → k / J < start + n → Inv (start * J) s →
      M.loop start n (fun i => M.loop 0 J (fun j => body i j)) s = .ub := by
    intro n
    induction n with
    | zero => intro start s h1 h2 _; omega
    | succ n ih =>
      intro start s h1 h2 hs
      simp only [M.loop]
      by_cases he : start = k / J
      · apply M.run_bind_ub
        -- inner loop
        have inner : ∀ (n st : Nat) (t : σ), st ≤ k % J → k % J < st + n → Inv (start * J + st) t →
            M.loop st n (fun j => body start j) t = .ub := by
          intro n
          induction n with
          | zero => intro st t a b _; omega
          | succ n ih2 =>
            intro st t a b ht
            simp only [M.loop]
            by_cases hq : st = k % J
            · apply M.run_bind_ub
              subst he; subst hq
              rw [hdm] at ht
              exact hub t ht
            · have hlt : start * J + st < k := by rw [he]; omega
              obtain ⟨t', e, h⟩ := step start st t (by omega) (by omega) hlt ht
              rw [M.run_bind_ok e]
              exact ih2 (st + 1) t' (by omega) (by omega) (by rw [← Nat.add_assoc]; exact h)
        exact inner J 0 s (by omega) (by omega) (by simpa using hs)
      · have hlt : start < k / J := by omega
        obtain ⟨t', e, h⟩ := M.loop_inv (body := fun j => body start j)
          (fun j t => Inv (start * J + j) t) J 0 s (by simpa using hs) (by
            intro j u _ hj hu
            have : start * J + j < k := by
              have := Nat.mul_le_mul_right J (show start + 1 ≤ k / J by omega)
              rw [Nat.add_mul] at this
              omega
            obtain ⟨u', e, h⟩ := step start j u (by omega) (by omega) this hu
            exact ⟨u', e, by rw [← Nat.add_assoc]; exact h⟩)
        rw [M.run_bind_ok e]
        refine ih (start + 1) t' (by omega) (by omega) ?_
        rw [Nat.add_mul, Nat.one_mul]; simpa using h
  exact aux I 0 s (Nat.zero_le _) (by rw [Nat.zero_add]; exact hkI) (by simpa using h0)

theorem flat_div {i j J : Nat} (hj : j < J) : (i * J + j) / J = i := by
  rw [Nat.mul_comm, Nat.mul_add_div (by omega), Nat.div_eq_of_lt hj, Nat.add_zero]

theorem flat_mod {i j J : Nat} (hj : j < J) : (i * J + j) % J = j := by
  rw [Nat.mul_comm, Nat.mul_add_mod, Nat.mod_eq_of_lt hj]

theorem flat_inj {i j i' j' J : Nat} (hj : j < J) (hj' : j' < J) (h : i * J + j = i' * J + j') :
    i = i' ∧ j = j' := by
  have h1 := flat_div (i := i) hj
  have h2 := flat_mod (i := i) hj
  rw [h, flat_div hj'] at h1
  rw [h, flat_mod hj'] at h2
  exact ⟨h1.symm, h2.symm⟩

theorem flat_lt {i j I J : Nat} (hi : i < I) (hj : j < J) : i * J + j < I * J := by
  have := Nat.mul_le_mul_right J (show i + 1 ≤ I by omega)
  rw [Nat.add_mul] at this
  omega

theorem lsbBit_append_left (p q : List UInt8) (n : Nat) (h : n < 8 * p.length) :
    lsbBit (p ++ q) n = lsbBit p n := by
  unfold lsbBit
  have : n / 8 < p.length := by omega
  rw [List.getD_eq_getElem?_getD, List.getD_eq_getElem?_getD, List.getElem?_append_left this]

theorem lsbBit_append_last (p : List UInt8) (b : UInt8) (k : Nat) (h : k < 8) :
    lsbBit (p ++ [b]) (8 * p.length + k) = b.toNat.testBit k := by
  unfold lsbBit
  have e1 : (8 * p.length + k) / 8 = p.length := by omega
  have e2 : (8 * p.length + k) % 8 = k := by omega
  rw [e1, e2]
  simp

namespace BitMatrix

/-- bit number `n` of the matrix in row-major order -/
def flat (m : BitMatrix) (n : Nat) : Bool := cell m (n / m.jsize) (n % m.jsize)

theorem serialize_loop {m : BitMatrix} (h : WF m) :
    ∃ s, (M.loop 0 m.isize fun i => M.loop 0 m.jsize fun j => serStep m i j) ⟨[], 0, 0⟩ = .ok () s ∧
      s.out.length = m.isize * m.jsize / 8 ∧
      ∀ n, n < 8 * s.out.length → lsbBit s.out n = flat m n := by
  obtain ⟨s, e, h1, h2, h3, h4, h5⟩ := M.loop2_inv (body := fun i j => serStep m i j)
    (fun n s => s.out.length = n / 8 ∧ s.bitCnt = n % 8 ∧
      (∀ k, k < 8 * s.out.length → lsbBit s.out k = flat m k) ∧
      (∀ k, k < n % 8 → s.cur.toNat.testBit k = flat m (8 * (n / 8) + k)) ∧ True)
    m.isize m.jsize ⟨[], 0, 0⟩ (by simp) (by
      rintro i j ⟨out, bc, cur⟩ hi hj ⟨h1, h2, h3, h4, _⟩
      simp only at h1 h2 h3 h4
      simp only [serStep, unsafeGet_eq h hi (div8_lt _ _ hj)]
      have hbc : bc < 8 := by omega
      obtain ⟨b', eb, hb⟩ := setBit_ok cur bc (cell m i j) hbc
      rw [eb]
      simp only
      have hflat : flat m (i * m.jsize + j) = cell m i j := by
        unfold flat; rw [flat_div hj, flat_mod hj]
      generalize hn : i * m.jsize + j = n at *
      have hcur : ∀ k, k < n % 8 + 1 → b'.toNat.testBit k = flat m (8 * (n / 8) + k) := by
        intro k hk
        rw [hb k (by omega)]
        by_cases hkb : k = bc
        · rw [if_pos hkb, ← hflat]; congr 1; omega
        · rw [if_neg hkb]; exact h4 k (by omega)
      by_cases h8 : 8 = bc + 1
      · rw [if_pos h8]
        refine ⟨_, rfl, ?_, ?_, ?_, ?_, trivial⟩
        · simp only [List.length_append, List.length_singleton]; omega
        · show 0 = _; omega
        · intro k hk
          simp only [List.length_append, List.length_singleton] at hk
          by_cases hl : k < 8 * out.length
          · show lsbBit (out ++ [b']) k = _
            rw [lsbBit_append_left _ _ _ hl]; exact h3 k hl
          · obtain ⟨q, rfl⟩ : ∃ q, k = 8 * out.length + q := ⟨k - 8 * out.length, by omega⟩
            show lsbBit (out ++ [b']) _ = _
            rw [lsbBit_append_last _ _ _ (by omega), hcur q (by omega), h1]
        · intro k hk; omega
      · rw [if_neg h8]
        refine ⟨_, rfl, ?_, ?_, h3, ?_, trivial⟩
        · show out.length = _; omega
        · show bc + 1 = _; omega
        · intro k hk
          have : (n + 1) / 8 = n / 8 := by omega
          rw [this]
          exact hcur k (by omega))
  exact ⟨s, e, h1, h3⟩

theorem serialize_eq {m : BitMatrix} (h : WF m) (hi : 0 < m.isize) (hj : 0 < m.jsize) :
    ∃ p, serialize m = .ok (8 :: le64 m.isize ++ 8 :: le64 m.jsize ++ p) ∧
      p.length = m.isize * m.jsize / 8 ∧ ∀ n, n < 8 * p.length → lsbBit p n = flat m n := by
  obtain ⟨s, e, h1, h2⟩ := serialize_loop h
  have hn : opNot m = false := by rw [opNot_eq h]; simp; omega
  exact ⟨s.out, by simp [serialize, serializeSizes, serializeMatrix, hn, e], h1, h2⟩

theorem le64_length (n : Nat) : (le64 n).length = 8 := by simp [le64]

theorem leVal_le64 (n : Nat) (h : n < 2 ^ 64) : leVal (le64 n) = n := by
  have e : le64 n = [UInt8.ofNat (n / 256 ^ 0), UInt8.ofNat (n / 256 ^ 1), UInt8.ofNat (n / 256 ^ 2),
    UInt8.ofNat (n / 256 ^ 3), UInt8.ofNat (n / 256 ^ 4), UInt8.ofNat (n / 256 ^ 5),
    UInt8.ofNat (n / 256 ^ 6), UInt8.ofNat (n / 256 ^ 7)] := rfl
  rw [e]
  simp only [leVal, UInt8.toNat_ofNat']
  omega

theorem leVal_lt : ∀ l : List UInt8, leVal l < 256 ^ l.length
  | [] => by simp [leVal]
  | b :: bs => by
    have := leVal_lt bs
    have hb := b.toNat_lt
    simp only [leVal, List.length_cons, Nat.pow_succ]
    omega

theorem zipIdx_sum (l : List UInt8) (k : Nat) :
    ((l.zipIdx k).map fun p => p.1.toNat * 256 ^ p.2).sum = leVal l * 256 ^ k := by
  induction l generalizing k with
  | nil => simp [leVal]
  | cons b bs ih =>
    simp only [List.zipIdx_cons, List.map_cons, List.sum_cons, ih, leVal]
    ring

theorem readSize_eq (buf : List UInt8) (cnt it : Nat) (h1 : cnt ≤ 8) (h2 : it + cnt ≤ buf.length) :
    readSize buf cnt it = .ok (leVal ((buf.drop it).take cnt), it + cnt) := by
  have a : ¬ 8 < cnt := by omega
  have b : ¬ buf.length < it + cnt := by omega
  simp only [readSize, a, b, if_false]
  rw [zipIdx_sum]; simp

/-- state reached by the deserialisation loop after `n` bits -/
def DesInv (I J it2 : Nat) (buf : List UInt8) (n : Nat) (s : DesSt) : Prop :=
  WF s.m ∧ s.m.isize = I ∧ s.m.jsize = J ∧ s.it = it2 + n / 8 ∧ s.bitCnt = n % 8 ∧
    ∀ i j, i < I → j < J → i * J + j < n → cell s.m i j = lsbBit (buf.drop it2) (i * J + j)

theorem desStep_ok {I J it2 : Nat} {buf : List UInt8} {i j : Nat} {t : DesSt} (hi : i < I) (hj : j < J)
    (hl : it2 + (i * J + j) / 8 < buf.length) (ht : DesInv I J it2 buf (i * J + j) t) :
    ∃ t', desStep buf i j t = .ok () t' ∧ DesInv I J it2 buf (i * J + j + 1) t' := by
  obtain ⟨m, it, bc⟩ := t
  obtain ⟨w, d1, d2, d3, d4, hc⟩ := ht
  simp only at w d1 d2 d3 d4 hc
  subst d3 d4
  have hb : (i * J + j) % 8 < 8 := by omega
  simp only [desStep, Res.idx_of_lt _ _ hl, getBit_eq _ _ hb]
  obtain ⟨m', e, w', d1', d2', hcell⟩ := set_ok w (i := i) (j := j)
    (buf[it2 + (i * J + j) / 8].toNat.testBit ((i * J + j) % 8)) (by omega) (by omega)
  rw [e]
  simp only
  have hbit : buf[it2 + (i * J + j) / 8].toNat.testBit ((i * J + j) % 8) =
      lsbBit (buf.drop it2) (i * J + j) := by
    unfold lsbBit
    rw [List.getD_eq_getElem?_getD, List.getElem?_drop, List.getElem?_eq_getElem hl]
    rfl
  have hnew : ∀ i' j', i' < I → j' < J → i' * J + j' < i * J + j + 1 →
      cell m' i' j' = lsbBit (buf.drop it2) (i' * J + j') := by
    intro i' j' hi' hj' hlt
    rw [hcell]
    by_cases hh : i' = i ∧ j' = j
    · rw [if_pos hh, hbit, hh.1, hh.2]
    · rw [if_neg hh]
      apply hc i' j' hi' hj'
      rcases Nat.lt_or_ge (i' * J + j') (i * J + j) with h | h
      · exact h
      · exact absurd (flat_inj hj' hj (by omega)) hh
  by_cases h8 : 8 = (i * J + j) % 8 + 1
  · rw [if_pos h8]
    exact ⟨_, rfl, w', by simpa using d1'.trans d1, by simpa using d2'.trans d2, by simp only; omega,
      by simp only; omega, hnew⟩
  · rw [if_neg h8]
    exact ⟨_, rfl, w', by simpa using d1'.trans d1, by simpa using d2'.trans d2, by simp only; omega,
      by simp only; omega, hnew⟩

theorem deserialize_cases (buf : List UInt8) (b0 : UInt8) (rest : List UInt8) (hb : buf = b0 :: rest) :
    (8 < b0.toNat → deserialize Alloc.ok buf = .ub) ∧
    (buf.length < 2 + 2 * b0.toNat → deserialize Alloc.ok buf = .ub) ∧
    (b0.toNat ≤ 8 → 2 + 2 * b0.toNat ≤ buf.length →
      let r := leVal ((buf.drop 1).take b0.toNat)
      let c := leVal ((buf.drop (2 + b0.toNat)).take b0.toNat)
      let payload := buf.drop (2 + 2 * b0.toNat)
      (8 * payload.length < r * c → deserialize Alloc.ok buf = .ub) ∧
      (r * c ≤ 8 * payload.length → ∃ m, deserialize Alloc.ok buf = .ok m ∧ WF m ∧
        m.isize = r ∧ m.jsize = c ∧
        ∀ i j, i < r → j < c → cell m i j = lsbBit payload (i * c + j))) := by
  have unf : deserialize Alloc.ok buf = (do
    let (iSize, it1) ← readSize buf b0.toNat 1
    let _colByteCnt ← Res.idx buf it1
    let (jSize, it2) ← readSize buf b0.toNat (it1 + 1)
    match (M.loop 0 iSize fun i => M.loop 0 jSize fun j => desStep buf i j)
        ⟨new Alloc.ok iSize jSize, it2, 0⟩ with
    | .ok _ s => .ok s.m
    | .throw e _ => .throw e
    | .ub => .ub) := by subst hb; rfl
  refine ⟨?_, ?_, ?_⟩
  · intro h; rw [unf]; simp [readSize, h]
  · intro h
    rw [unf]
    by_cases h8 : 8 < b0.toNat
    · simp [readSize, h8]
    by_cases h1 : buf.length < 1 + b0.toNat
    · simp [readSize, h8, h1]
    rw [readSize_eq buf _ _ (by omega) (by omega)]
    simp only [Res.ok_bind]
    by_cases h2 : buf.length ≤ 1 + b0.toNat
    · rw [Res.idx_of_ge _ _ h2]; rfl
    rw [Res.idx_of_lt _ _ (by omega)]
    simp only [Res.ok_bind]
    have : readSize buf b0.toNat (1 + b0.toNat + 1) = .ub := by
      simp only [readSize, h8, if_false]; rw [if_pos (by omega)]
    rw [this]; rfl
  · intro h8 hl r c payload
    have base : deserialize Alloc.ok buf =
      match (M.loop 0 r fun i => M.loop 0 c fun j => desStep buf i j)
        ⟨new Alloc.ok r c, 2 + 2 * b0.toNat, 0⟩ with
      | .ok _ s => .ok s.m
      | .throw e _ => .throw e
      | .ub => .ub := by
      rw [unf, readSize_eq buf _ _ (by omega) (by omega)]
      simp only [Res.ok_bind]
      rw [Res.idx_of_lt _ _ (by omega)]
      simp only [Res.ok_bind]
      rw [readSize_eq buf _ _ (by omega) (by omega)]
      simp only [Res.ok_bind]
      rw [show 1 + b0.toNat + 1 = 2 + b0.toNat by omega,
        show 2 + b0.toNat + b0.toNat = 2 + 2 * b0.toNat by omega]
    have h0 : DesInv r c (2 + 2 * b0.toNat) buf 0 ⟨new Alloc.ok r c, 2 + 2 * b0.toNat, 0⟩ := by
      rw [new_eq (al := Alloc.ok) rfl]
      exact ⟨zeroMat_wf r c, rfl, rfl, by simp, by simp, fun _ _ _ _ h => by omega⟩
    have hpl : payload.length = buf.length - (2 + 2 * b0.toNat) := by simp [payload]
    constructor
    · intro hs
      rw [base]
      rw [M.loop2_ub (DesInv r c (2 + 2 * b0.toNat) buf) r c (8 * payload.length) _ h0 hs
        (fun i j t hi hj hk ht => desStep_ok hi hj (by omega) ht)
        (by
          intro t ht
          obtain ⟨_, _, _, d3, _, _⟩ := ht
          simp only [desStep]
          rw [Res.idx_of_ge _ _ (by rw [d3]; omega)])]
    · intro hs
      obtain ⟨s, e, hw, d1, d2, _, _, hc⟩ := M.loop2_inv (DesInv r c (2 + 2 * b0.toNat) buf) r c _ h0
        (fun i j t hi hj ht => desStep_ok hi hj (by have := flat_lt hi hj; omega) ht)
      refine ⟨s.m, by rw [base, e], hw, d1, d2, ?_⟩
      intro i j hi hj
      exact hc i j hi hj (flat_lt hi hj)

/-- state of the `FromString` loop -/
def FsInv (r c : Nat) (str : List UInt8) (n : Nat) (s : FsSt) : Prop :=
  WF s.m ∧ s.m.isize = r ∧ s.m.jsize = c ∧ s.strIndex = n ∧
    ∀ i jb, jb < ceil8 c → byteAt s.m i jb = if i * ceil8 c + jb < n then str.getD (i * ceil8 c + jb) 0 else 0

theorem setByte_eq {m : BitMatrix} (h : WF m) {i jb : Nat} (hi : i < m.isize)
    (hj : jb < bytesPerRow m.jsize) (v : UInt8) :
    ∃ m', setByte i jb v m = .ok () m' ∧ WF m' ∧ m'.isize = m.isize ∧ m'.jsize = m.jsize ∧
      ∀ i' j', byteAt m' i' j' = if i' = i ∧ j' = jb then v else byteAt m i' j' := by
  have h1 : ¬ V2.rowCount m.bitmap ≤ i := by simp only [V2.rowCount, h.1]; omega
  have h2 : ¬ bytesPerRow m.jsize < jb := by omega
  obtain ⟨m', e, rest⟩ := writeByte_ok h hi hj (f := fun _ => .ok v) (b' := v) rfl
  refine ⟨m', ?_, rest⟩
  simp only [setByte, h1, if_false, colCount_eq h (show 0 < m.isize by omega), h2]
  exact e

theorem ceil8_le (n : Nat) : ceil8 n ≤ n := by rw [ceil8_eq]; omega

theorem fsStep_ok {r c : Nat} {str : List UInt8} {i j : Nat} {t : FsSt} (hi : i < ceil8 r) (hj : j < ceil8 c)
    (hl : i * ceil8 c + j < str.length) (hs : str.length < 2 ^ 32)
    (ht : FsInv r c str (i * ceil8 c + j) t) :
    ∃ t', fsStep str i j t = .ok () t' ∧ FsInv r c str (i * ceil8 c + j + 1) t' := by
  obtain ⟨m, si⟩ := t
  obtain ⟨w, d1, d2, d3, hc⟩ := ht
  simp only at w d1 d2 d3 hc
  subst d3
  have := ceil8_le r
  obtain ⟨m', e, w', d1', d2', hb⟩ := setByte_eq w (i := i) (jb := j) (by omega)
    (by rw [d2, bytesPerRow_eq, ← ceil8_eq]; exact hj) (str[i * ceil8 c + j])
  simp only [fsStep, Res.idx_of_lt _ _ hl, e]
  refine ⟨_, rfl, w', by simpa using d1'.trans d1, by simpa using d2'.trans d2, ?_, ?_⟩
  · show (_ + 1) % 2 ^ 32 = _
    exact Nat.mod_eq_of_lt (by omega)
  · intro i' j' hj'
    simp only
    rw [hb]
    by_cases hh : i' = i ∧ j' = j
    · rw [if_pos hh, hh.1, hh.2, if_pos (by omega), List.getD_eq_getElem?_getD,
        List.getElem?_eq_getElem hl]; rfl
    · rw [if_neg hh, hc i' j' hj']
      have : i' * ceil8 c + j' ≠ i * ceil8 c + j := fun h => hh (flat_inj hj' hj h)
      by_cases hlt : i' * ceil8 c + j' < i * ceil8 c + j
      · rw [if_pos hlt, if_pos (by omega)]
      · rw [if_neg hlt, if_neg (by omega)]

theorem fromString_cases (str : List UInt8) (r c : Nat) (hlen : str.length = (r * c) % 2 ^ 32) :
    (str.length < ceil8 r * ceil8 c → fromString Alloc.ok str r c = .ub) ∧
    (ceil8 r * ceil8 c ≤ str.length → ∃ m, fromString Alloc.ok str r c = .ok m ∧ WF m ∧
      m.isize = r ∧ m.jsize = c ∧
      ∀ i j, i < r → j < c → cell m i j =
        if i < ceil8 r then (str.getD (i * ceil8 c + j / 8) 0).toNat.testBit (7 - j % 8) else false) := by
  have hs : str.length < 2 ^ 32 := by rw [hlen]; exact Nat.mod_lt _ (by norm_num)
  have base : fromString Alloc.ok str r c =
      match (M.loop 0 (ceil8 r) fun i => M.loop 0 (ceil8 c) fun j => fsStep str i j)
        ⟨new Alloc.ok r c, 0⟩ with
      | .ok _ s => .ok s.m
      | .throw e _ => .throw e
      | .ub => .ub := by
    unfold fromString
    rw [if_neg (by rw [hlen]; simp)]
    rfl
  have h0 : FsInv r c str 0 ⟨new Alloc.ok r c, 0⟩ := by
    rw [new_eq (al := Alloc.ok) rfl]
    refine ⟨zeroMat_wf r c, rfl, rfl, rfl, ?_⟩
    intro i jb _
    simp only [zeroMat_byteAt]; simp
  constructor
  · intro h
    rw [base, M.loop2_ub (FsInv r c str) (ceil8 r) (ceil8 c) str.length _ h0 h
      (fun i j t hi hj hk ht => fsStep_ok hi hj hk hs ht) (by
        intro t ht
        simp only [fsStep]
        rw [Res.idx_of_ge _ _ (by rw [ht.2.2.2.1])])]
  · intro h
    obtain ⟨s, e, w, d1, d2, _, hc⟩ := M.loop2_inv (FsInv r c str) (ceil8 r) (ceil8 c) _ h0
      (fun i j t hi hj ht => fsStep_ok hi hj (by have := flat_lt hi hj; omega) hs ht)
    refine ⟨s.m, by rw [base, e], w, d1, d2, ?_⟩
    intro i j hi hj
    have hjb : j / 8 < ceil8 c := by rw [ceil8_eq]; omega
    simp only [cell]
    rw [hc i (j / 8) hjb]
    by_cases hir : i < ceil8 r
    · rw [if_pos (flat_lt hir hjb), if_pos hir]
    · rw [if_neg hir, if_neg]
      · simp
      · have := Nat.mul_le_mul_right (ceil8 c) (show ceil8 r ≤ i by omega)
        omega

end BitMatrix
end Verif
