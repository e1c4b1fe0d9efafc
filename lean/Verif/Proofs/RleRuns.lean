import Verif.Proofs.Rle

/-! The exact code the run-length encoder emits, in terms of the maximal runs. -/

namespace Verif.Rle
open ByteHandler BitMatrix Spec

theorem runByte_spec (v : Bool) (n : Nat) (h : n < 128) : runLen (runByte v n) = n ∧ runVal (runByte v n) = v := by
  unfold runLen runVal runByte
  cases v
  · simp only [Bool.false_eq_true, if_false, UInt8.toNat_ofNat']
    constructor
    · omega
    · rw [decide_eq_false_iff_not]; omega
  · simp only [if_true, UInt8.toNat_ofNat']
    constructor
    · omega
    · rw [decide_eq_true_iff]; omega

theorem byte_ext {a b : UInt8} (h1 : runLen a = runLen b) (h2 : runVal a = runVal b) : a = b := by
  unfold runLen runVal at *
  apply UInt8.toNat_inj.mp
  rw [decide_eq_decide] at h2
  have := a.toNat_lt
  have := b.toNat_lt
  omega

theorem setBit7_eq (k : UInt8) (v : Bool) (h : k.toNat < 128) : setBit k 7 v = .ok (runByte v k.toNat) := by
  obtain ⟨k', e, h1, h2⟩ := setBit7 k v h
  obtain ⟨h3, h4⟩ := runByte_spec v k.toNat h
  rw [e, byte_ext (h1.trans h3.symm) (h2.trans h4.symm)]

theorem runsCode_append (a b : List (Bool × Nat)) : runsCode (a ++ b) = runsCode a ++ runsCode b := by
  unfold runsCode; rw [List.flatMap_append]

theorem runsBits_append (a b : List (Bool × Nat)) : runsBits (a ++ b) = runsBits a ++ runsBits b := by
  unfold runsBits; rw [List.flatMap_append]

/-- the encoder after some bits: finished runs `rs` and `n` bits of the current one -/
structure RunInv (bits : List Bool) (s : EncSt) : Prop where
  runs : ∃ rs n, Runs (if n = 0 then rs else rs ++ [(s.cur, n)]) ∧ (n = 0 → rs = []) ∧
    bits = runsBits rs ++ List.replicate n s.cur ∧
    s.out = runsCode rs ++ List.replicate (n / 127) (runByte s.cur 127) ∧ s.key.toNat = n % 127

theorem runs_grow {rs : List (Bool × Nat)} {v : Bool} {n : Nat} (h : Runs (rs ++ [(v, n)])) : Runs (rs ++ [(v, n + 1)]) := by
  constructor
  · intro r hr
    rcases List.mem_append.1 hr with hr | hr
    · exact h.pos r (List.mem_append_left _ hr)
    · rw [List.mem_singleton.1 hr]; exact Nat.succ_pos n
  · have := h.alternate
    rw [List.isChain_append] at this ⊢
    exact ⟨this.1, by simp, by simpa using this.2.2⟩

theorem runs_next {rs : List (Bool × Nat)} {v b : Bool} {n : Nat} (h : Runs (rs ++ [(v, n)])) (hb : v ≠ b) :
    Runs ((rs ++ [(v, n)]) ++ [(b, 1)]) := by
  constructor
  · intro r hr
    rcases List.mem_append.1 hr with hr | hr
    · exact h.pos r hr
    · rw [List.mem_singleton.1 hr]; exact Nat.one_pos
  · rw [List.isChain_append]
    refine ⟨h.alternate, by simp, ?_⟩
    intro x hx y hy
    simp at hx hy
    rw [← hx, ← hy]; exact hb

theorem encStep_runs {bits : List Bool} {s : EncSt} (h : RunInv bits s) (b : Bool) (h0 : bits = [] → s.cur = b) :
    ∃ s', encStep b s = .ok () s' ∧ RunInv (bits ++ [b]) s' := by
  obtain ⟨out, cur, key⟩ := s
  obtain ⟨rs, n, hr, hz, hbits, hout, hkey⟩ := h
  dsimp only at hr hz hbits hout hkey h0
  by_cases hcb : cur = b
  · subst hcb
    have hk1 : (key + 1).toNat = n % 127 + 1 := by
      rw [UInt8.toNat_add, hkey]
      have : n % 127 < 127 := Nat.mod_lt _ (by norm_num)
      simp
      omega
    have hruns : Runs (rs ++ [(cur, n + 1)]) := by
      split at hr
      · rename_i hn
        rw [hz hn, hn]
        exact ⟨by simp, by simp⟩
      · exact runs_grow hr
    have hb' : bits ++ [cur] = runsBits rs ++ List.replicate (n + 1) cur := by
      rw [hbits, List.append_assoc, List.replicate_succ']
    by_cases h127 : key + 1 = 127
    · have hk' : n % 127 + 1 = 127 := by rw [← hk1, h127]; rfl
      refine ⟨⟨out ++ [runByte cur 127], cur, 0⟩, ?_, ⟨rs, n + 1, by simpa using hruns, by simp, hb', ?_, ?_⟩⟩
      · have := setBit7_eq 127 cur (by decide)
        simp [encStep, M.run_bind, h127, pushKey, this]
      · dsimp only
        have : (n + 1) / 127 = n / 127 + 1 := by omega
        rw [hout, this, List.replicate_succ', List.append_assoc]
      · show (0 : UInt8).toNat = _
        rw [show (0 : UInt8).toNat = 0 from rfl]; omega
    · have hk' : n % 127 + 1 ≠ 127 := fun hh => h127 (by
        apply UInt8.toNat_inj.mp; rw [hk1, hh]; rfl)
      refine ⟨⟨out, cur, key + 1⟩, ?_, ⟨rs, n + 1, by simpa using hruns, by simp, hb', ?_, ?_⟩⟩
      · simp [encStep, M.run_bind, h127]
      · dsimp only
        have : (n + 1) / 127 = n / 127 := by omega
        rw [hout, this]
      · dsimp only
        rw [hk1]; omega
  · have hb : b = !cur := by cases b <;> cases cur <;> simp_all
    have hne : bits ≠ [] := fun hh => hcb (h0 hh)
    have hn : n ≠ 0 := by
      intro hn
      apply hne
      rw [hbits, hz hn, hn]; rfl
    rw [if_neg hn] at hr
    have hlt : n % 127 < 127 := Nat.mod_lt _ (by norm_num)
    have e' := setBit7_eq key cur (by omega)
    refine ⟨⟨out ++ [runByte cur key.toNat], b, 1⟩, ?_, ⟨rs ++ [(cur, n)], 1, ?_, by simp, ?_, ?_, ?_⟩⟩
    · have : ¬ ((1 : UInt8) = 127) := by decide
      simp [encStep, M.run_bind, pushKey, e', this, hb]
    · rw [if_neg (by norm_num)]; exact runs_next hr hcb
    · rw [hbits, runsBits_append]
      simp [runsBits]
    · dsimp only
      rw [hout, runsCode_append, hkey]
      simp [runsCode]
    · rfl

theorem enc_loops_runs {I J : Nat} (rd : Nat → Nat → Res Bool) (f : Nat → Nat → Bool)
    (hrd : ∀ i j, i < I → j < J → rd i j = .ok (f i j)) (hI : 0 < I) (hJ : 0 < J) :
    ∃ s rs, (do
        M.loop 0 I fun i => M.loop 0 J fun j => encRead (rd i j)
        pushKey : M EncSt Unit) ⟨[], f 0 0, 0⟩ = .ok () s ∧
      Runs rs ∧ bitsUpto J f (I * J) = runsBits rs ∧ s.out = runsCode rs := by
  obtain ⟨s, e, hi⟩ := M.loop2_inv (body := fun i j => encRead (rd i j))
    (fun n s => RunInv (bitsUpto J f n) s ∧ (n = 0 → s.cur = f 0 0)) I J ⟨[], f 0 0, 0⟩
    ⟨⟨[], 0, ⟨by simp, by simp⟩, by simp, rfl, rfl, rfl⟩, by simp⟩ (by
      intro i j t hi hj ht
      obtain ⟨s', e, h⟩ := encStep_runs ht.1 (f i j) (by
        intro hh
        have hz : i * J + j = 0 := by
          have := congrArg List.length hh
          simpa [bitsUpto] using this
        have hj0 : j = 0 := by omega
        have hi0 : i = 0 := by
          have h1 := flat_div (i := i) hj
          rw [hz, Nat.zero_div] at h1; exact h1.symm
        subst hj0 hi0
        exact ht.2 hz)
      refine ⟨s', by simp [encRead, hrd i j hi hj, M.run_bind, e], ?_, by omega⟩
      rw [bitsUpto_succ f hj]; exact h)
  have hpos : 0 < I * J := Nat.mul_pos hI hJ
  obtain ⟨rs, n, hr, hz, hbits, hout, hkey⟩ := hi.1.runs
  have hn : n ≠ 0 := by
    intro hn
    have := congrArg List.length hbits
    rw [hz hn, hn] at this
    simp [bitsUpto, runsBits] at this; omega
  rw [if_neg hn] at hr
  have hlt : n % 127 < 127 := Nat.mod_lt _ (by norm_num)
  have e' := setBit7_eq s.key s.cur (by omega)
  refine ⟨{ s with out := s.out ++ [runByte s.cur s.key.toNat], key := runByte s.cur s.key.toNat }, rs ++ [(s.cur, n)], ?_, hr, ?_, ?_⟩
  · rw [M.run_bind_ok e]
    simp [pushKey, e']
  · rw [hbits, runsBits_append]; simp [runsBits]
  · dsimp only
    rw [hout, runsCode_append, hkey]; simp [runsCode]

theorem encode_runs {m : BitMatrix} (h : WF m) (hi : 0 < m.isize) (hj : 0 < m.jsize) :
    ∃ rs, Runs rs ∧ rowMajor m.isize m.jsize (cell m) = runsBits rs ∧ encode m = .ok (runsCode rs) := by
  obtain ⟨s, rs, e, h1, h2, h3⟩ := enc_loops_runs (I := m.isize) (J := m.jsize) (fun i j => BitMatrix.get m i j)
    (cell m) (fun i j hi hj => get_eq h hi hj) hi hj
  refine ⟨rs, h1, h2, ?_⟩
  have hn : opNot m = false := by rw [opNot_eq h]; simp; omega
  simp only [encode, hn, get_eq h hi hj, Res.ok_bind, e, ← h3]
  rfl

theorem runsCode_length (rs : List (Bool × Nat)) : (runsCode rs).length = (rs.map fun r => r.2 / 127 + 1).sum := by
  induction rs with
  | nil => rfl
  | cons r rs ih =>
    have : runsCode (r :: rs) = (List.replicate (r.2 / 127) (runByte r.1 127) ++ [runByte r.1 (r.2 % 127)]) ++ runsCode rs := rfl
    rw [this, List.length_append, ih]
    simp

theorem runsBits_length (rs : List (Bool × Nat)) : (runsBits rs).length = (rs.map fun r => r.2).sum := by
  induction rs with
  | nil => rfl
  | cons r rs ih =>
    have : runsBits (r :: rs) = List.replicate r.2 r.1 ++ runsBits rs := rfl
    rw [this, List.length_append, ih]
    simp

/-- the maximal runs of a list of bits are unique -/
theorem runs_unique : ∀ {a b : List (Bool × Nat)}, Runs a → Runs b → runsBits a = runsBits b → a = b
  | [], [], _, _, _ => rfl
  | [], r :: b, _, hb, h => by
    have := congrArg List.length h
    rw [runsBits_length, runsBits_length] at this
    have := hb.pos r (by simp)
    simp at *
    omega
  | r :: a, [], ha, _, h => by
    have := congrArg List.length h
    rw [runsBits_length, runsBits_length] at this
    have := ha.pos r (by simp)
    simp at *
    omega
  | (v, n) :: a, (w, k) :: b, ha, hb, h => by
    have hn : 0 < n := ha.pos (v, n) (by simp)
    have hk : 0 < k := hb.pos (w, k) (by simp)
    have ha' : Runs a := ⟨fun r hr => ha.pos r (List.mem_cons_of_mem _ hr), ha.alternate.tail⟩
    have hb' : Runs b := ⟨fun r hr => hb.pos r (List.mem_cons_of_mem _ hr), hb.alternate.tail⟩
    have h' : List.replicate n v ++ runsBits a = List.replicate k w ++ runsBits b := h
    have hv : v = w := by
      obtain ⟨n', rfl⟩ : ∃ n', n = n' + 1 := ⟨n - 1, by omega⟩
      obtain ⟨k', rfl⟩ : ∃ k', k = k' + 1 := ⟨k - 1, by omega⟩
      simp only [List.replicate_succ, List.cons_append, List.cons.injEq] at h'
      exact h'.1
    subst hv
    -- the first bit of the rest differs from `v`
    have first : ∀ {c : List (Bool × Nat)} {n : Nat}, Runs ((v, n) :: c) → ∀ x, (runsBits c).head? = some x → x ≠ v := by
      intro c n hc x hx
      cases c with
      | nil => cases hx
      | cons r c =>
        have h1 := hc.pos r (by simp)
        have h2 : v ≠ r.1 := by
          have := hc.alternate
          rw [List.isChain_cons_cons] at this
          exact this.1
        obtain ⟨w, k⟩ := r
        obtain ⟨k', rfl⟩ : ∃ k', k = k' + 1 := ⟨k - 1, by omega⟩
        have : runsBits ((w, k' + 1) :: c) = w :: (List.replicate k' w ++ runsBits c) := rfl
        rw [this] at hx
        simp at hx
        rw [← hx]
        exact h2.symm
    have hnk : n = k := by
      rcases Nat.lt_trichotomy n k with hlt | heq | hgt
      · exfalso
        obtain ⟨d, rfl⟩ : ∃ d, k = n + (d + 1) := ⟨k - n - 1, by omega⟩
        rw [List.replicate_add, List.append_assoc] at h'
        have := List.append_cancel_left h'
        exact first ha v (by rw [this]; rfl) rfl
      · exact heq
      · exfalso
        obtain ⟨d, rfl⟩ : ∃ d, n = k + (d + 1) := ⟨n - k - 1, by omega⟩
        rw [List.replicate_add, List.append_assoc] at h'
        have := List.append_cancel_left h'
        exact first hb v (by rw [← this]; rfl) rfl
    subst hnk
    rw [runs_unique ha' hb' (List.append_cancel_left h')]

end Verif.Rle
