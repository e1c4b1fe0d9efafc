import Verif.Proofs.Crc32Three
import Verif.Props.Crc32
import Verif.Props.LayoutMatrix
import Mathlib.Data.Finset.Card
import Mathlib.Data.Finset.Range

/-! C25, C23, C31: changes of up to three bits. -/

namespace Verif.Props
open Verif LayoutMatrix Base64
open Verif.Spec (bitOf crc32 checksumText)

theorem crc32_upto_three (s s' : List UInt8) (hl : s.length = s'.length) (hne : s ≠ s') (hs : s.length ≤ 11454) (i j k : Nat)
    (hd : ∀ t, bitOf s t ≠ bitOf s' t → t = i ∨ t = j ∨ t = k) : crc32 s ≠ crc32 s' := by
  have hlt : ∀ t, bitOf s t ≠ bitOf s' t → t < 8 * s.length := by
    intro t ht
    by_contra hge
    rw [Crc32.bitOf_false s t (by omega), Crc32.bitOf_false s' t (by omega)] at ht
    exact ht rfl
  have two : ∀ i j, (∀ t, bitOf s t ≠ bitOf s' t ↔ t = i ∨ t = j) → crc32 s ≠ crc32 s' := by
    intro i j hij
    have li := hlt i ((hij i).2 (.inl rfl))
    have lj := hlt j ((hij j).2 (.inr rfl))
    rcases Nat.lt_trichotomy i j with h | h | h
    · rw [Ne, Crc32.crc32_two_bits s s' hl i j h lj hij]
      intro hdv
      have := Nat.le_of_dvd (by omega) hdv
      omega
    · refine Crc32.crc32_burst s s' hl i (fun t ht => ?_) hne
      have := (hij t).1 ht
      omega
    · rw [Ne, Crc32.crc32_two_bits s s' hl j i h li (fun t => by rw [hij t, or_comm])]
      intro hdv
      have := Nat.le_of_dvd (by omega) hdv
      omega
  have three : ∀ i j k, i < j → j < k → (∀ t, bitOf s t ≠ bitOf s' t ↔ t = i ∨ t = j ∨ t = k) → crc32 s ≠ crc32 s' := by
    intro i j k hij hjk h
    have := hlt k ((h k).2 (by simp))
    exact Crc32.crc32_three s s' hl i j k hij hjk this (by omega) h
  by_cases hi : bitOf s i ≠ bitOf s' i
  swap
  · by_cases hj : bitOf s j ≠ bitOf s' j
    swap
    · by_cases hk : bitOf s k ≠ bitOf s' k
      · exact two k k fun t => ⟨fun h => by
          rcases hd t h with rfl | rfl | rfl
          · exact absurd h hi
          · exact absurd h hj
          · exact .inl rfl, by rintro (rfl | rfl) <;> exact hk⟩
      · exfalso
        apply hne
        apply Crc32.leVal_inj s s' hl
        apply Nat.eq_of_testBit_eq
        intro t
        rw [Crc32.leVal_testBit, Crc32.leVal_testBit]
        by_contra h
        rcases hd t h with rfl | rfl | rfl <;> contradiction
    · by_cases hk : bitOf s k ≠ bitOf s' k
      · exact two j k fun t => ⟨fun h => by
          rcases hd t h with rfl | rfl | rfl
          · exact absurd h hi
          · exact .inl rfl
          · exact .inr rfl, by rintro (rfl | rfl) <;> assumption⟩
      · exact two j j fun t => ⟨fun h => by
          rcases hd t h with rfl | rfl | rfl
          · exact absurd h hi
          · exact .inl rfl
          · exact absurd h hk, by rintro (rfl | rfl) <;> assumption⟩
  · by_cases hj : bitOf s j ≠ bitOf s' j
    swap
    · by_cases hk : bitOf s k ≠ bitOf s' k
      · exact two i k fun t => ⟨fun h => by
          rcases hd t h with rfl | rfl | rfl
          · exact .inl rfl
          · exact absurd h hj
          · exact .inr rfl, by rintro (rfl | rfl) <;> assumption⟩
      · exact two i i fun t => ⟨fun h => by
          rcases hd t h with rfl | rfl | rfl
          · exact .inl rfl
          · exact absurd h hj
          · exact absurd h hk, by rintro (rfl | rfl) <;> assumption⟩
    · by_cases hk : bitOf s k ≠ bitOf s' k
      swap
      · exact two i j fun t => ⟨fun h => by
          rcases hd t h with rfl | rfl | rfl
          · exact .inl rfl
          · exact .inr rfl
          · exact absurd h hk, by rintro (rfl | rfl) <;> assumption⟩
      have hiff : ∀ t, bitOf s t ≠ bitOf s' t ↔ t = i ∨ t = j ∨ t = k := fun t =>
        ⟨hd t, by rintro (rfl | rfl | rfl) <;> assumption⟩
      by_cases e1 : i = j
      · exact two i k fun t => by rw [hiff t, e1]; tauto
      by_cases e2 : i = k
      · exact two i j fun t => by rw [hiff t, e2]; tauto
      by_cases e3 : j = k
      · exact two i j fun t => by rw [hiff t, e3]; tauto
      rcases Nat.lt_or_gt_of_ne e1 with a | a <;> rcases Nat.lt_or_gt_of_ne e2 with b | b <;> rcases Nat.lt_or_gt_of_ne e3 with c | c
      · exact three i j k a c hiff
      · exact three i k j b c fun t => by rw [hiff t]; tauto
      · omega
      · exact three k i j b a fun t => by rw [hiff t]; tauto
      · exact three j i k a b fun t => by rw [hiff t]; tauto
      · omega
      · exact three j k i c b fun t => by rw [hiff t]; tauto
      · exact three k j i c a fun t => by rw [hiff t]; tauto

/-- **C25** In buffers of up to 11454 bytes every change of one, two or three bits changes the hash. -/
theorem C25_three_bits_detected (s s' : List UInt8) (hl : s.length = s'.length) (hne : s ≠ s') (hs : s.length ≤ 11454)
    (i j k : Nat) (hd : ∀ t, bitOf s t ≠ bitOf s' t → t = i ∨ t = j ∨ t = k)
    (x y : Nat) (hx : Crc32.calcHash (some s) s.length = .ok x) (hy : Crc32.calcHash (some s') s'.length = .ok y) : x ≠ y := by
  rw [crcOk hx, crcOk hy]
  exact crc32_upto_three s s' hl hne hs i j k hd

/-- **C25** The same in buffers of any length if the three bits lie within 91639 consecutive bits. -/
theorem C25_three_bits_near (s s' : List UInt8) (hl : s.length = s'.length) (i j k : Nat) (hij : i < j) (hjk : j < k)
    (hk : k < 8 * s.length) (hspan : k - i < 91639) (hd : ∀ t, bitOf s t ≠ bitOf s' t ↔ t = i ∨ t = j ∨ t = k)
    (x y : Nat) (hx : Crc32.calcHash (some s) s.length = .ok x) (hy : Crc32.calcHash (some s') s'.length = .ok y) : x ≠ y := by
  rw [crcOk hx, crcOk hy]
  exact Crc32.crc32_three s s' hl i j k hij hjk hk hspan hd

/-- **C25** Both bounds are sharp: in every buffer of 11455 bytes or more, three bits within 91640 can be flipped without
changing the hash. -/
theorem C25_three_bits_missed (s : List UInt8) (hs : 11455 ≤ s.length) : ∃ (s' : List UInt8) (x : Nat), s'.length = s.length ∧
    (∀ t, bitOf s t ≠ bitOf s' t ↔ t = 0 ∨ t = 49961 ∨ t = 91639) ∧
    Crc32.calcHash (some s) s.length = .ok x ∧ Crc32.calcHash (some s') s'.length = .ok x := by
  obtain ⟨s', h1, h2, h3⟩ := Crc32.crc32_three_missed s hs
  refine ⟨s', crc32 s, h1, h2, ?_, ?_⟩
  · exact Crc32.calcHash_eq _ (by rintro rfl; simp at hs)
  · rw [h3]; exact Crc32.calcHash_eq _ (by rintro rfl; simp at h1; omega)

/-- **C23** Changing up to three bits of the body of an armored text makes decoding throw (bodies of up to 11454
characters). -/
theorem C23_three_bits (body body' : List UInt8) (hl : body.length = body'.length) (hne : body ≠ body')
    (hs : body.length ≤ 11454) (i j k : Nat) (hd : ∀ t, bitOf body t ≠ bitOf body' t → t = i ∨ t = j ∨ t = k) :
    base64Decode (body' ++ checksumText body) .radix64 = .throw .runtimeError := by
  have hb : body' ≠ [] := by
    rintro rfl
    simp at hl
    exact hne hl
  show radix64Decode _ = _
  rw [radix64Decode_split _ _ hb (by omega) (crcText_length _), if_pos]
  intro h
  exact crc32_upto_three body body' hl hne hs i j k hd (crcText_inj h).symm

theorem split_at {l : List UInt8} {n : Nat} (h : n ≤ l.length) : ∃ a b, l = a ++ b ∧ a.length = n :=
  ⟨l.take n, l.drop n, (List.take_append_drop n l).symm, by rw [List.length_take]; omega⟩

theorem bitOf_mid (a b c : List UInt8) (t : Nat) (ht : t < 8 * b.length) : bitOf (a ++ b ++ c) (t + 8 * a.length) = bitOf b t := by
  unfold Spec.bitOf
  have e1 : (t + 8 * a.length) / 8 = t / 8 + a.length := by omega
  have e2 : (t + 8 * a.length) % 8 = t % 8 := by omega
  rw [e1, e2, List.append_assoc, List.getD_eq_getElem?_getD, List.getD_eq_getElem?_getD, List.getElem?_append_right (by omega),
    List.getElem?_append_left (by omega), Nat.add_sub_cancel]

/-- the parts of a text as long as a hash -/
theorem four_parts (h' : List UInt8) (b : Nat) (hl : h'.length = 70 + b) :
    ∃ A B C D : List UInt8, h' = A ++ B ++ C ++ D ∧ A.length = 32 ∧ B.length = b ∧ C.length = 8 ∧ D.length = 30 := by
  obtain ⟨A, t, e1, l1⟩ := split_at (l := h') (n := 32) (by omega)
  have m1 : t.length = 38 + b := by rw [e1, List.length_append] at hl; omega
  obtain ⟨B, t2, e2, l2⟩ := split_at (l := t) (n := b) (by omega)
  have m2 : t2.length = 38 := by rw [e2, List.length_append] at m1; omega
  obtain ⟨C, D, e3, l3⟩ := split_at (l := t2) (n := 8) (by omega)
  have m3 : D.length = 30 := by rw [e3, List.length_append] at m2; omega
  exact ⟨A, B, C, D, by rw [e1, e2, e3]; simp, l1, l2, l3, m3⟩

/-- **C31** Changing up to three bits of a hash of up to 11524 characters, but none of its eight checksum characters, makes
`DecodeHash` throw on every platform. -/
theorem C31_three_bits (p : Platform) (al : Alloc) (m : BitMatrix) (hm : Built m) (h1 : 0 < m.isize)
    (h2 : 0 < m.jsize) (h : List UInt8) (he : encodeHash m = .ok h) (hs : h.length ≤ 11524)
    (h' : List UInt8) (hl : h'.length = h.length) (hne : h' ≠ h) (i j k : Nat)
    (hd : ∀ t, bitOf h t ≠ bitOf h' t → t = i ∨ t = j ∨ t = k)
    (hc : ∀ q, h.length - 38 ≤ q → q < h.length - 30 → h'[q]? = h[q]?) :
    ∃ e, decodeHash p al h' = .throw e := by
  obtain ⟨code, R, body, t, ec, hcn, rfl, hRe, hD, ht, hR, hbody⟩ := hash_parts hm h1 h2 he
  rw [covered_eq (by simp [hR] at hs; omega)] at hR
  subst hR
  have hlen : (strBegin ++ (body ++ checksumText body) ++ strEnd).length = 70 + body.length := by
    simp [strBegin_length, strEnd_length, crcText_length]; omega
  obtain ⟨A, B, C, D, e, lA, lB, lC, lD⟩ := four_parts h' body.length (by rw [hl, hlen])
  by_cases hA : A = strBegin
  swap
  · refine ⟨_, decodeHash_noBegin p al _ ?_⟩
    rw [e, List.append_assoc, List.append_assoc, List.take_left' lA]
    exact hA
  by_cases hE : D = strEnd
  swap
  · refine ⟨_, decodeHash_noEnd p al _ (by omega) ?_⟩
    rw [e, List.drop_left' (by simp; omega)]
    exact hE
  subst hA hE
  have hC : C = checksumText body := by
    apply List.ext_getElem?
    intro q
    by_cases hq : q < 8
    · have := hc (32 + body.length + q) (by omega) (by omega)
      rw [e, List.getElem?_append_left (by simp; omega), List.getElem?_append_right (by simp; omega),
        List.getElem?_append_left (by simp [crcText_length, strBegin_length]; omega),
        List.getElem?_append_right (by simp [strBegin_length]; omega), List.getElem?_append_right (by simp [strBegin_length]; omega)] at this
      have a1 : 32 + body.length + q - (strBegin ++ B).length = q := by simp [strBegin_length]; omega
      have a2 : 32 + body.length + q - strBegin.length - body.length = q := by simp [strBegin_length]; omega
      rw [a1, a2] at this
      exact this
    · rw [List.getElem?_eq_none (by omega), List.getElem?_eq_none (by rw [crcText_length]; omega)]
  subst hC
  have hB : body ≠ B := by
    rintro rfl
    exact hne (by rw [e]; simp)
  have hf : h' = strBegin ++ (B ++ checksumText body) ++ strEnd := by rw [e]; simp
  rw [hf, decodeHash_frame]
  have hthrow := C23_three_bits body B lB.symm hB (by omega) (i - 256) (j - 256) (k - 256) (fun t htd => by
    by_cases hlt : t < 8 * body.length
    · have d1 : bitOf (strBegin ++ (body ++ checksumText body) ++ strEnd) (t + 8 * strBegin.length) = bitOf body t := by
        have := bitOf_mid strBegin body (checksumText body ++ strEnd) t hlt
        rw [← this]; congr 1; simp
      have d2 : bitOf h' (t + 8 * strBegin.length) = bitOf B t := by
        have := bitOf_mid strBegin B (checksumText body ++ strEnd) t (by omega)
        rw [← this, hf]; congr 1; simp
      have := hd (t + 8 * strBegin.length) (by rw [d1, d2]; exact htd)
      rw [strBegin_length] at this
      omega
    · rw [Crc32.bitOf_false _ _ (by omega), Crc32.bitOf_false _ _ (by omega)] at htd
      exact absurd rfl htd)
  rw [hthrow]
  exact ⟨_, rfl⟩

/-- **C31** In a hash shorter than 2³² characters, any change outside the body (the two marker lines and the checksum characters) makes `DecodeHash` throw. -/
theorem C31_outside_body (p : Platform) (al : Alloc) (m : BitMatrix) (hm : Built m) (h1 : 0 < m.isize)
    (h2 : 0 < m.jsize) (h : List UInt8) (he : encodeHash m = .ok h) (hs : h.length < 2 ^ 32)
    (h' : List UInt8) (hl : h'.length = h.length) (hne : h' ≠ h)
    (hc : ∀ q, 32 ≤ q → q < h.length - 38 → h'[q]? = h[q]?) :
    ∃ e, decodeHash p al h' = .throw e := by
  obtain ⟨code, R, body, t, ec, hcn, rfl, hRe, hD, ht, hR, hbody⟩ := hash_parts hm h1 h2 he
  rw [covered_eq (by simp [hR] at hs; omega)] at hR
  subst hR
  have hlen : (strBegin ++ (body ++ checksumText body) ++ strEnd).length = 70 + body.length := by
    simp [strBegin_length, strEnd_length, crcText_length]; omega
  obtain ⟨A, B, C, D, e, lA, lB, lC, lD⟩ := four_parts h' body.length (by rw [hl, hlen])
  by_cases hA : A = strBegin
  swap
  · refine ⟨_, decodeHash_noBegin p al _ ?_⟩
    rw [e, List.append_assoc, List.append_assoc, List.take_left' lA]
    exact hA
  by_cases hE : D = strEnd
  swap
  · refine ⟨_, decodeHash_noEnd p al _ (by omega) ?_⟩
    rw [e, List.drop_left' (by simp; omega)]
    exact hE
  subst hA hE
  have hB : B = body := by
    apply List.ext_getElem?
    intro q
    by_cases hq : q < body.length
    · have := hc (32 + q) (by omega) (by omega)
      rw [e, List.getElem?_append_left (by simp; omega), List.getElem?_append_left (by simp; omega),
        List.getElem?_append_right (by simp [strBegin_length]),
        List.getElem?_append_left (by simp [crcText_length, strBegin_length]; omega),
        List.getElem?_append_right (by simp [strBegin_length]), List.getElem?_append_left (by simp [strBegin_length]; omega)] at this
      have a1 : 32 + q - strBegin.length = q := by simp [strBegin_length]
      rw [a1] at this
      exact this
    · rw [List.getElem?_eq_none (by omega), List.getElem?_eq_none (by omega)]
  subst hB
  have hf : h' = strBegin ++ (B ++ C) ++ strEnd := by rw [e]; simp
  have hbn : B ≠ [] := by
    rintro rfl
    rw [List.nil_append] at hD
    have : base64Decode (checksumText []) .radix64 = .throw .invalidArgument := by
      have c8 := crcText_length []
      have cn : checksumText [] ≠ [] := by intro hh; rw [hh] at c8; cases c8
      show radix64Decode _ = _
      unfold radix64Decode
      rw [if_neg cn, if_pos (by omega)]
    rw [this] at hD
    cases hD
  rw [hf, decodeHash_frame, C23_checksum_change B C hbn (by omega) lC (fun hh => hne (by rw [hf, hh]))]
  exact ⟨_, rfl⟩

/-! Non-vacuity. -/

/-- bits 0, 9 and 18 of three bytes -/
example : ∃ x y, Crc32.calcHash (some [1, 2, 3]) 3 = .ok x ∧ Crc32.calcHash (some [0, 0, 7]) 3 = .ok y ∧ x ≠ y := by
  refine ⟨_, _, C24_calcHash _ 3 (by decide) (by decide), C24_calcHash _ 3 (by decide) (by decide), ?_⟩
  refine C25_three_bits_detected [1, 2, 3] [0, 0, 7] rfl (by decide) (by decide) 0 9 18 (fun k => ?_) _ _
    (C24_calcHash _ 3 (by decide) (by decide)) (C24_calcHash _ 3 (by decide) (by decide))
  by_cases h : k < 24
  · have : ∀ k : Fin 24, bitOf [1, 2, 3] k ≠ bitOf [0, 0, 7] k → k.1 = 0 ∨ k.1 = 9 ∨ k.1 = 18 := by decide +kernel
    exact this ⟨k, h⟩
  · intro hk
    rw [Crc32.bitOf_false _ _ (by simp; omega), Crc32.bitOf_false _ _ (by simp; omega)] at hk
    exact absurd rfl hk

/-- the hash of a 3 × 5 matrix is short enough -/
example : ∃ h, encodeHash (BitMatrix.new Alloc.ok 3 5) = .ok h ∧ 100 < h.length ∧ h.length ≤ 11524 := by
  have : (match encodeHash (BitMatrix.new Alloc.ok 3 5) with
    | .ok h => decide (100 < h.length ∧ h.length ≤ 11524)
    | _ => false) = true := by decide +kernel
  revert this
  cases encodeHash (BitMatrix.new Alloc.ok 3 5) with
  | ok h => intro h'; exact ⟨h, rfl, of_decide_eq_true h'⟩
  | throw e => intro h'; cases h'
  | ub => intro h'; cases h'

end Verif.Props
