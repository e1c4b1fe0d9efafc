import Verif.Model.Base64
import Verif.Spec.Base64
import Verif.Proofs.Crc32

namespace Verif.Base64
open Spec

theorem idx_dict (u : Bool) (n : Nat) (h : n < 64) : Res.idx (dictionary u) n = .ok (alphabet u n) := by
  have : ∀ u : Bool, ∀ n < 64, Res.idx (dictionary u) n = .ok (alphabet u n) := by decide +kernel
  exact this u n h

theorem symb_alpha (u : Bool) (n : Nat) (h : n < 64) :
    symbPosition (alphabet u n) = .ok n ∧ notPad (alphabet u n) = true ∧
      alphabet u n ≠ 10 ∧ alphabet u n ≠ 13 := by
  have : ∀ u : Bool, ∀ n < 64, symbPosition (alphabet u n) = .ok n ∧ notPad (alphabet u n) = true ∧
    alphabet u n ≠ 10 ∧ alphabet u n ≠ 13 := by decide +kernel
  exact this u n h

/-- classification of all 256 characters -/
theorem symb_cases (c : UInt8) :
    (isAlpha c = true → ∃ n, n < 64 ∧ symbPosition c = .ok n ∧ notPad c = true) ∧
    (isAlpha c = false → symbPosition c = .throw .runtimeError) := by
  have : ∀ k < 256, (isAlpha (UInt8.ofNat k) = true →
      (∃ n, n < 64 ∧ symbPosition (UInt8.ofNat k) = .ok n) ∧ notPad (UInt8.ofNat k) = true) ∧
    (isAlpha (UInt8.ofNat k) = false → symbPosition (UInt8.ofNat k) = .throw .runtimeError) := by
    decide +kernel
  have h := this c.toNat c.toNat_lt
  rw [UInt8.ofNat_toNat] at h
  exact ⟨fun hc => let ⟨⟨n, a, b⟩, d⟩ := h.1 hc; ⟨n, a, b, d⟩, h.2⟩

theorem symb_lt (c : UInt8) (n : Nat) (h : symbPosition c = .ok n) : n < 64 := by
  cases hc : isAlpha c with
  | true =>
    obtain ⟨n', h1, h2, _⟩ := (symb_cases c).1 hc
    rw [h] at h2; injection h2 with h2; omega
  | false => rw [(symb_cases c).2 hc] at h; simp at h

theorem and_FC (a : Nat) (h : a < 256) : (a &&& 0xFC) >>> 2 = a / 4 := by
  have : ∀ a < 256, (a &&& 0xFC) >>> 2 = a / 4 := by decide +kernel
  exact this a h
theorem and_F0 (a : Nat) (h : a < 256) : (a &&& 0xF0) >>> 4 = a / 16 := by
  have : ∀ a < 256, (a &&& 0xF0) >>> 4 = a / 16 := by decide +kernel
  exact this a h
theorem and_C0 (a : Nat) (h : a < 256) : (a &&& 0xC0) >>> 6 = a / 64 := by
  have : ∀ a < 256, (a &&& 0xC0) >>> 6 = a / 64 := by decide +kernel
  exact this a h
theorem and_3C (a : Nat) (h : a < 64) : (a &&& 0x3C) >>> 2 = a / 4 := by
  have : ∀ a < 64, (a &&& 0x3C) >>> 2 = a / 4 := by decide +kernel
  exact this a h
theorem and_3 (a : Nat) : a &&& 0x03 = a % 4 := Nat.and_two_pow_sub_one_eq_mod a 2
theorem and_0F (a : Nat) : a &&& 0x0F = a % 16 := Nat.and_two_pow_sub_one_eq_mod a 4
theorem and_3F (a : Nat) : a &&& 0x3F = a % 64 := Nat.and_two_pow_sub_one_eq_mod a 6

theorem or_add (x k y : Nat) (h : y < 2 ^ k) : (x <<< k) ||| y = x * 2 ^ k + y := by
  rw [← Nat.shiftLeft_add_eq_or_of_lt h, Nat.shiftLeft_eq]

/-- result of the encoder loop -/
def encF (u : Bool) : List UInt8 → List UInt8
  | [] => []
  | [a] => [alphabet u (a.toNat / 4), alphabet u (a.toNat % 4 * 16), padChar u, padChar u]
  | [a, b] => [alphabet u (a.toNat / 4), alphabet u (a.toNat % 4 * 16 + b.toNat / 16),
      alphabet u (b.toNat % 16 * 4), padChar u]
  | a :: b :: c :: rest =>
    alphabet u (a.toNat / 4) :: alphabet u (a.toNat % 4 * 16 + b.toNat / 16) ::
      alphabet u (b.toNat % 16 * 4 + c.toNat / 64) :: alphabet u (c.toNat % 64) :: encF u rest

theorem pad_eq (u : Bool) : (if u then ch '.' else ch '=') = padChar u := by cases u <;> rfl

theorem encodeLoop_eq (u : Bool) (s : List UInt8) : encodeLoop u s = .ok (encF u s) := by
  induction s using encF.induct with
  | case1 => rfl
  | case2 a =>
    have ha := a.toNat_lt
    simp only [encodeLoop, and_FC _ ha, and_3, Nat.shiftLeft_eq]
    rw [idx_dict u _ (by omega), Res.ok_bind, idx_dict u _ (by omega), Res.ok_bind, pad_eq]
    rfl
  | case3 a b =>
    have ha := a.toNat_lt
    have hb := b.toNat_lt
    simp only [encodeLoop, and_FC _ ha, and_3, and_0F, and_F0 _ hb]
    rw [or_add _ _ _ (by omega), Nat.shiftLeft_eq]
    rw [idx_dict u _ (by omega), Res.ok_bind, idx_dict u _ (by omega), Res.ok_bind,
      idx_dict u _ (by omega), Res.ok_bind, pad_eq]
    rfl
  | case4 a b c rest ih =>
    have ha := a.toNat_lt
    have hb := b.toNat_lt
    have hc := c.toNat_lt
    simp only [encodeLoop, and_FC _ ha, and_3, and_0F, and_F0 _ hb, and_C0 _ hc, and_3F]
    rw [or_add _ _ _ (by omega), or_add _ _ _ (by omega)]
    rw [idx_dict u _ (by omega), Res.ok_bind, idx_dict u _ (by omega), Res.ok_bind,
      idx_dict u _ (by omega), Res.ok_bind, idx_dict u _ (by omega), Res.ok_bind, ih]
    rfl

theorem encF_length (u : Bool) (s : List UInt8) : (encF u s).length = 4 * ((s.length + 2) / 3) := by
  induction s using encF.induct with
  | case1 => rfl
  | case2 a => simp [encF]
  | case3 a b => simp [encF]
  | case4 a b c rest ih =>
    simp only [encF, List.length_cons, ih]; omega

theorem encF_ne_nil (u : Bool) {s : List UInt8} (h : s ≠ []) : encF u s ≠ [] := by
  intro e
  have := encF_length u s
  have hs : s.length ≠ 0 := by simpa using h
  rw [e] at this; simp at this; omega

theorem encode_eq (u : Bool) {s : List UInt8} (h : s ≠ []) : encode s u = .ok (encF u s) := by
  simp [encode, h, encodeLoop_eq]

/-! ### meaning of the encoder output -/

theorem tb (x i : Nat) : (if x.testBit i then 1 else 0) = x / 2 ^ i % 2 := by
  rw [Nat.testBit_eq_decide_div_mod_eq]
  by_cases h : x / 2 ^ i % 2 = 1
  · simp [h]
  · have : x / 2 ^ i % 2 = 0 := by omega
    simp [this]

theorem msbBit_eq (s : List UInt8) (n : Nat) :
    msbBit s n = (s.getD (n / 8) 0).toNat / 2 ^ (7 - n % 8) % 2 := tb _ _

theorem msbBit_shift (a b c : UInt8) (s : List UInt8) (n : Nat) :
    msbBit (a :: b :: c :: s) (24 + n) = msbBit s n := by
  unfold msbBit
  rw [show (24 + n) / 8 = n / 8 + 3 by omega, show (24 + n) % 8 = n % 8 by omega]
  simp

theorem sextet_shift (a b c : UInt8) (s : List UInt8) (k : Nat) :
    sextet (a :: b :: c :: s) (k + 4) = sextet s k := by
  unfold sextet
  rw [show 6 * (k + 4) = 24 + 6 * k by omega]
  simp only [Nat.add_assoc, msbBit_shift]

theorem sextet0 (a : UInt8) (s : List UInt8) : sextet (a :: s) 0 = a.toNat / 4 := by
  have := a.toNat_lt
  simp only [sextet, msbBit_eq]
  simp
  omega

theorem sextet1 (a b : UInt8) (s : List UInt8) :
    sextet (a :: b :: s) 1 = a.toNat % 4 * 16 + b.toNat / 16 := by
  have := a.toNat_lt
  have := b.toNat_lt
  simp only [sextet, msbBit_eq]
  simp
  omega

theorem sextet1' (a : UInt8) : sextet [a] 1 = a.toNat % 4 * 16 := by
  have := a.toNat_lt
  simp only [sextet, msbBit_eq]
  simp
  omega

theorem sextet2 (a b c : UInt8) (s : List UInt8) :
    sextet (a :: b :: c :: s) 2 = b.toNat % 16 * 4 + c.toNat / 64 := by
  have := b.toNat_lt
  have := c.toNat_lt
  simp only [sextet, msbBit_eq]
  simp
  omega

theorem sextet2' (a b : UInt8) : sextet [a, b] 2 = b.toNat % 16 * 4 := by
  have := b.toNat_lt
  simp only [sextet, msbBit_eq]
  simp
  omega

theorem sextet3 (a b c : UInt8) (s : List UInt8) : sextet (a :: b :: c :: s) 3 = c.toNat % 64 := by
  have := c.toNat_lt
  simp only [sextet, msbBit_eq]
  simp
  omega

theorem encF_getElem (u : Bool) (s : List UInt8) (k : Nat) (hk : k < (encF u s).length) :
    (encF u s)[k]? = some (if 6 * k < 8 * s.length then alphabet u (sextet s k) else padChar u) := by
  induction s using encF.induct generalizing k with
  | case1 => simp [encF] at hk
  | case2 a =>
    rcases k with _ | _ | _ | _ | k
    · simp [encF, sextet0]
    · simp [encF, sextet1']
    · simp [encF]
    · simp [encF]
    · simp [encF] at hk; omega
  | case3 a b =>
    rcases k with _ | _ | _ | _ | k
    · simp [encF, sextet0]
    · simp [encF, sextet1]
    · simp [encF, sextet2']
    · simp [encF]
    · simp [encF] at hk; omega
  | case4 a b c rest ih =>
    rcases k with _ | _ | _ | _ | k
    · simp [encF, sextet0]
    · simp [encF, sextet1]; omega
    · simp [encF, sextet2]; omega
    · simp [encF, sextet3]; omega
    · have hk' : k < (encF u rest).length := by simp [encF] at hk; omega
      have := ih k hk'
      rw [show k + 1 + 1 + 1 + 1 = k + 4 by omega, sextet_shift]
      simp only [encF, List.getElem?_cons_succ, List.length_cons]
      rw [this]
      by_cases h : 6 * k < 8 * rest.length
      · rw [if_pos h, if_pos (by omega)]
      · rw [if_neg h, if_neg (by omega)]

/-! ### decoding -/

theorem byte_or {x k y : Nat} (hy : y < 2 ^ k) (b : UInt8) (h : (x * 2 ^ k + y) % 256 = b.toNat) :
    UInt8.ofNat (x <<< k) ||| UInt8.ofNat y = b := by
  apply UInt8.toNat_inj.mp
  rw [← UInt8.ofNat_or, or_add _ _ _ hy, UInt8.toNat_ofNat']
  exact h

theorem notPad_pad (u : Bool) : notPad (padChar u) = false := by cases u <;> rfl

theorem decode_encF (u : Bool) (s junk : List UInt8) (h : junk = [] ∨ s.length % 3 ≠ 0) :
    decodeLoop (encF u s ++ junk) = .ok s := by
  induction s using encF.induct with
  | case1 => rcases h with h | h <;> simp_all [encF, decodeLoop]
  | case2 a =>
    have ha := a.toNat_lt
    simp only [encF, List.cons_append, List.nil_append, decodeLoop]
    rw [(symb_alpha u _ (by omega)).1, Res.ok_bind, (symb_alpha u _ (by omega)).1, Res.ok_bind, notPad_pad]
    simp only [Nat.shiftRight_eq_div_pow]
    rw [byte_or (b := a) (by omega) (by omega)]
    simp
  | case3 a b =>
    have ha := a.toNat_lt
    have hb := b.toNat_lt
    simp only [encF, List.cons_append, List.nil_append, decodeLoop]
    rw [(symb_alpha u _ (by omega)).1, Res.ok_bind, (symb_alpha u _ (by omega)).1, Res.ok_bind,
      (symb_alpha u _ (by omega)).2.1, if_pos rfl, (symb_alpha u _ (by omega)).1, Res.ok_bind, notPad_pad,
      and_0F, and_3C _ (by omega)]
    simp only [Nat.shiftRight_eq_div_pow]
    rw [byte_or (b := a) (by omega) (by omega), byte_or (b := b) (by omega) (by omega)]
    simp
  | case4 a b c rest ih =>
    have ha := a.toNat_lt
    have hb := b.toNat_lt
    have hc := c.toNat_lt
    simp only [encF, List.cons_append, decodeLoop]
    rw [(symb_alpha u _ (by omega)).1, Res.ok_bind, (symb_alpha u _ (by omega)).1, Res.ok_bind,
      (symb_alpha u _ (by omega)).2.1, if_pos rfl, (symb_alpha u _ (by omega)).1, Res.ok_bind,
      (symb_alpha u _ (by omega)).2.1, if_pos rfl, (symb_alpha u _ (by omega)).1, Res.ok_bind,
      ih (by rcases h with h | h; exact .inl h; right; simp at h; omega), Res.ok_bind,
      and_0F, and_3C _ (by omega), and_3, and_3F]
    simp only [Nat.shiftRight_eq_div_pow]
    rw [byte_or (b := a) (by omega) (by omega), byte_or (b := b) (by omega) (by omega),
      byte_or (b := c) (by omega) (by omega)]

theorem standardDecode_encF (u : Bool) {s : List UInt8} (h : s ≠ []) :
    standardDecode (encF u s) = .ok s := by
  have := decode_encF u s [] (.inl rfl)
  rw [List.append_nil] at this
  simp [standardDecode, encF_ne_nil u h, this]

/-! ### line breaking -/

theorem encF_noCRLF (u : Bool) (s : List UInt8) : ∀ c ∈ encF u s, c ≠ 10 ∧ c ≠ 13 := by
  have hp : padChar u ≠ 10 ∧ padChar u ≠ 13 := by cases u <;> decide
  have ha : ∀ n, n < 64 → alphabet u n ≠ 10 ∧ alphabet u n ≠ 13 := fun n hn => (symb_alpha u n hn).2.2
  induction s using encF.induct with
  | case1 => simp [encF]
  | case2 a =>
    have h1 := a.toNat_lt
    intro c hc
    simp only [encF, List.mem_cons, List.not_mem_nil, or_false] at hc
    rcases hc with h | h | h | h <;> subst h <;> first | exact hp | exact ha _ (by omega)
  | case3 a b =>
    have h1 := a.toNat_lt
    have h2 := b.toNat_lt
    intro c hc
    simp only [encF, List.mem_cons, List.not_mem_nil, or_false] at hc
    rcases hc with h | h | h | h <;> subst h <;> first | exact hp | exact ha _ (by omega)
  | case4 a b c rest ih =>
    have h1 := a.toNat_lt
    have h2 := b.toNat_lt
    have h3 := c.toNat_lt
    intro x hc
    simp only [encF, List.mem_cons] at hc
    rcases hc with h | h | h | h | h
    · subst h; exact ha _ (by omega)
    · subst h; exact ha _ (by omega)
    · subst h; exact ha _ (by omega)
    · subst h; exact ha _ (by omega)
    · exact ih x h

theorem filter_id (l : List UInt8) (h : ∀ c ∈ l, c ≠ 10 ∧ c ≠ 13) :
    (l.filter (· != 10)).filter (· != 13) = l := by
  rw [List.filter_filter, List.filter_eq_self]
  intro c hc; have := h c hc; simp [this.1, this.2]

theorem splitLoop_spec (len : Nat) (hl : 0 < len) (v : List UInt8) (hv : v ≠ []) :
    ∃ (full : List (List UInt8)) (last : List UInt8),
      (∀ l ∈ full, l.length = len) ∧ 0 < last.length ∧ last.length ≤ len ∧
      full.flatten ++ last = v ∧
      splitLoop endline len hl v = (full.map (· ++ endline)).flatten ++ last := by
  induction hn : v.length using Nat.strongRecOn generalizing v with
  | ind n ih =>
    rw [splitLoop]
    by_cases h : len < v.length
    · rw [dif_pos h]
      have hd : v.drop len ≠ [] := by
        intro e; have := congrArg List.length e; simp at this; omega
      obtain ⟨full, last, h1, h2, h3, h4, h5⟩ := ih (v.drop len).length (by simp; omega) (v.drop len) hd rfl
      refine ⟨v.take len :: full, last, ?_, h2, h3, ?_, ?_⟩
      · intro l hm
        simp only [List.mem_cons] at hm
        rcases hm with hm | hm
        · subst hm; simp; omega
        · exact h1 l hm
      · simp only [List.flatten_cons, List.append_assoc, h4, List.take_append_drop]
      · simp only [List.map_cons, List.flatten_cons, List.append_assoc, h5]
    · rw [dif_neg h]
      refine ⟨[], v, by simp, ?_, by omega, by simp, by simp⟩
      have : v.length ≠ 0 := by simpa using hv
      omega

theorem filter_splitLoop (len : Nat) (hl : 0 < len) (v : List UInt8) (h : ∀ c ∈ v, c ≠ 10 ∧ c ≠ 13) :
    ((splitLoop endline len hl v).filter (· != 10)).filter (· != 13) = v := by
  induction hn : v.length using Nat.strongRecOn generalizing v with
  | ind n ih =>
    rw [splitLoop]
    by_cases hlt : len < v.length
    · rw [dif_pos hlt]
      simp only [List.filter_append]
      rw [ih (v.drop len).length (by simp; omega) (v.drop len)
        (fun c hc => h c (List.mem_of_mem_drop hc)) rfl,
        filter_id (v.take len) (fun c hc => h c (List.mem_of_mem_take hc))]
      have : (endline.filter (· != 10)).filter (· != 13) = [] := by decide
      rw [this, List.append_nil, List.take_append_drop]
    · rw [dif_neg hlt]; exact filter_id v h

theorem encodeSep_eq (len : Nat) (hl : 0 < len) {s : List UInt8} (h : s ≠ []) :
    encodeWithSeparator s endline len = .ok (splitLoop endline len hl (encF false s)) := by
  have : ¬ (endline.length = 0 ∨ len = 0) := by simp [endline]; omega
  simp only [encodeWithSeparator]
  rw [dif_neg this, encode_eq false h]
  rfl

theorem decodeSep_encode (len : Nat) (hl : 0 < len) {s : List UInt8} (h : s ≠ []) :
    decodeWithSeparators (splitLoop endline len hl (encF false s)) = .ok s := by
  unfold decodeWithSeparators
  rw [filter_splitLoop len hl _ (encF_noCRLF false s)]
  exact standardDecode_encF false h

/-! ### totality of the decoder -/

theorem decodeLoop_mult4 (s : List UInt8) (h : s.length % 4 = 0) :
    (∃ d, decodeLoop s = .ok d ∧ d.length ≤ 3 * (s.length / 4)) ∨ decodeLoop s = .throw .runtimeError := by
  induction s using decodeLoop.induct with
  | case1 => left; exact ⟨[], rfl, by simp⟩
  | case2 => simp at h
  | case3 => simp at h
  | case4 => simp at h
  | case5 e0 e1 e2 e3 rest ih =>
    have sp : ∀ c, (∃ n, symbPosition c = .ok n) ∨ symbPosition c = .throw .runtimeError := by
      intro c
      cases hc : isAlpha c with
      | true => obtain ⟨n, _, h2, _⟩ := (symb_cases c).1 hc; exact .inl ⟨n, h2⟩
      | false => exact .inr ((symb_cases c).2 hc)
    have hr : rest.length % 4 = 0 := by simp at h; omega
    simp only [decodeLoop]
    rcases sp e0 with ⟨p0, h0⟩ | h0
    · rw [h0, Res.ok_bind]
      rcases sp e1 with ⟨p1, h1⟩ | h1
      · rw [h1, Res.ok_bind]
        split
        · rcases sp e2 with ⟨p2, h2⟩ | h2
          · rw [h2, Res.ok_bind]
            split
            · rcases sp e3 with ⟨p3, h3⟩ | h3
              · rw [h3, Res.ok_bind]
                rcases ih hr with ⟨d, hd, hl⟩ | hd
                · left; rw [hd]; exact ⟨_, rfl, by simp; omega⟩
                · right; rw [hd]; rfl
              · right; rw [h3]; rfl
            · left; exact ⟨_, rfl, by simp; omega⟩
          · right; rw [h2]; rfl
        · left; exact ⟨_, rfl, by simp; omega⟩
      · right; rw [h1]; rfl
    · right; rw [h0]; rfl

theorem decodeLoop_ub (s : List UInt8) (h : s.length % 4 ≠ 0) (ha : ∀ c ∈ s, isAlpha c = true) :
    decodeLoop s = .ub := by
  induction s using decodeLoop.induct with
  | case1 => simp at h
  | case2 e0 =>
    obtain ⟨n, _, h0, _⟩ := (symb_cases e0).1 (ha e0 (by simp))
    simp [decodeLoop, h0]
  | case3 e0 e1 =>
    obtain ⟨n, _, h0, _⟩ := (symb_cases e0).1 (ha e0 (by simp))
    obtain ⟨n1, _, h1, _⟩ := (symb_cases e1).1 (ha e1 (by simp))
    simp [decodeLoop, h0, h1]
  | case4 e0 e1 e2 =>
    obtain ⟨n, _, h0, _⟩ := (symb_cases e0).1 (ha e0 (by simp))
    obtain ⟨n1, _, h1, _⟩ := (symb_cases e1).1 (ha e1 (by simp))
    obtain ⟨n2, _, h2, h2'⟩ := (symb_cases e2).1 (ha e2 (by simp))
    simp [decodeLoop, h0, h1, h2, h2']
  | case5 e0 e1 e2 e3 rest ih =>
    obtain ⟨n, _, h0, _⟩ := (symb_cases e0).1 (ha e0 (by simp))
    obtain ⟨n1, _, h1, _⟩ := (symb_cases e1).1 (ha e1 (by simp))
    obtain ⟨n2, _, h2, h2'⟩ := (symb_cases e2).1 (ha e2 (by simp))
    obtain ⟨n3, _, h3, h3'⟩ := (symb_cases e3).1 (ha e3 (by simp))
    have := ih (by simp at h; omega) (fun c hc => ha c (by simp [hc]))
    simp [decodeLoop, h0, h1, h2, h2', h3, h3', this]

end Verif.Base64
