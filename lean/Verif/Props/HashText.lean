import Verif.Props.LayoutMatrix
import Verif.Props.Base64Decode
import Verif.Props.Serialize
import Verif.Props.Rle
import Verif.Spec.HashText

/-! C70: `DecodeHash` of every text. -/

namespace Verif.Props
open Verif LayoutMatrix ByteHandler BitMatrix Base64
open Verif.Spec (DecodesTo DecodeOutcome msbBit checksumText expand)
open Verif.Spec.HashText
open Verif.Spec.Msk (bytes)

theorem decodesTo_unique {p d d' : List UInt8} (h : DecodesTo p d) (h' : DecodesTo p d') : d = d' := by
  have hl : d.length = d'.length := by rw [h.1, h'.1]
  apply List.ext_getElem hl
  intro i hi hi'
  apply byte_ext
  intro k hk
  have e1 := h.2 (8 * i + (7 - k)) (by omega)
  have e2 := h'.2 (8 * i + (7 - k)) (by omega)
  rw [← e2] at e1
  unfold msbBit at e1
  rw [show (8 * i + (7 - k)) / 8 = i by omega, show 7 - (8 * i + (7 - k)) % 8 = k by omega,
    List.getD_eq_getElem?_getD, List.getD_eq_getElem?_getD, List.getElem?_eq_getElem hi, List.getElem?_eq_getElem hi'] at e1
  cases ha : d[i].toNat.testBit k <;> cases hb : d'[i].toNat.testBit k <;> simp [ha, hb] at e1 ⊢

theorem outcome_unique {e : List UInt8} {r r' : Res (List UInt8)} (h : DecodeOutcome e r) (h' : DecodeOutcome e r') : r = r' := by
  unfold DecodeOutcome at h h'
  dsimp only at h h'
  cases hx : e.drop (e.takeWhile Spec.isAlpha).length with
  | nil =>
    rw [hx] at h h'
    dsimp only at h h'
    split_ifs at h h'
    · obtain ⟨d, rfl, hd⟩ := h
      obtain ⟨d', rfl, hd'⟩ := h'
      rw [decodesTo_unique hd hd']
    · rw [h, h']
  | cons c t =>
    rw [hx] at h h'
    dsimp only at h h'
    split_ifs at h h'
    · obtain ⟨d, rfl, hd⟩ := h
      obtain ⟨d', rfl, hd'⟩ := h'
      rw [decodesTo_unique hd hd']
    · rw [h, h']

theorem outcome_cases {e : List UInt8} {r : Res (List UInt8)} (h : DecodeOutcome e r) :
    (∃ d, r = .ok d) ∨ r = .ub ∨ r = .throw .runtimeError := by
  unfold DecodeOutcome at h
  dsimp only at h
  split at h <;> split_ifs at h
  · obtain ⟨d, rfl, _⟩ := h; exact .inl ⟨d, rfl⟩
  · exact .inr (.inl h)
  · obtain ⟨d, rfl, _⟩ := h; exact .inl ⟨d, rfl⟩
  · exact .inr (.inr h)

theorem not_overruns_nil : ¬ Overruns [] := by
  unfold Overruns DecodeOutcome; simp

/-- standard decoding, in the words of the specification -/
theorem standard_cases (e : List UInt8) :
    (∃ d, Reads e d ∧ base64Decode e .standard = .ok d) ∨ (Overruns e ∧ base64Decode e .standard = .ub) ∨
    ((¬ ∃ d, Reads e d) ∧ ¬ Overruns e ∧ ∃ x, base64Decode e .standard = .throw x) := by
  by_cases he : e = []
  · subst he
    exact .inr (.inr ⟨by rintro ⟨d, h, _⟩; exact h rfl, not_overruns_nil, _, rfl⟩)
  have h := C20_exact e he .standard (.inl rfl)
  rcases outcome_cases h with ⟨d, hd⟩ | hd | hd
  · exact .inl ⟨d, ⟨he, hd ▸ h⟩, hd⟩
  · exact .inr (.inl ⟨by rw [hd] at h; exact h, hd⟩)
  · refine .inr (.inr ⟨?_, ?_, _, hd⟩)
    · rintro ⟨d, _, h'⟩; have := outcome_unique h h'; rw [hd] at this; cases this
    · intro h'; have := outcome_unique h h'; rw [hd] at this; cases this

theorem reads_standard {e d : List UInt8} (h : Reads e d) : base64Decode e .standard = .ok d :=
  outcome_unique (C20_exact e h.1 .standard (.inl rfl)) h.2

theorem overruns_standard {e : List UInt8} (h : Overruns e) : base64Decode e .standard = .ub := by
  have he : e ≠ [] := by rintro rfl; exact not_overruns_nil h
  exact outcome_unique (C20_exact e he .standard (.inl rfl)) h

theorem mime_cases (e : List UInt8) :
    (∃ d, Reads (noBreaks e) d ∧ base64Decode e .mime = .ok d) ∨ (Overruns (noBreaks e) ∧ base64Decode e .mime = .ub) ∨
    ((¬ ∃ d, Reads (noBreaks e) d) ∧ ¬ Overruns (noBreaks e) ∧ ∃ x, base64Decode e .mime = .throw x) := by
  obtain ⟨h1, h2⟩ := C20_exact_lines e .mime (.inr rfl)
  by_cases he : noBreaks e = []
  · refine .inr (.inr ⟨by rintro ⟨d, h, _⟩; exact h he, by rw [he]; exact not_overruns_nil, _, h1 he⟩)
  have h : DecodeOutcome (noBreaks e) (base64Decode e .mime) := h2 he
  rcases outcome_cases h with ⟨d, hd⟩ | hd | hd
  · exact .inl ⟨d, ⟨he, hd ▸ h⟩, hd⟩
  · exact .inr (.inl ⟨by rw [hd] at h; exact h, hd⟩)
  · refine .inr (.inr ⟨?_, ?_, _, hd⟩)
    · rintro ⟨d, _, h'⟩; have := outcome_unique h h'; rw [hd] at this; cases this
    · intro h'; have := outcome_unique h h'; rw [hd] at this; cases this

theorem reads_mime {e d : List UInt8} (h : Reads (noBreaks e) d) : base64Decode e .mime = .ok d :=
  outcome_unique ((C20_exact_lines e .mime (.inr rfl)).2 h.1) h.2

theorem overruns_mime {e : List UInt8} (h : Overruns (noBreaks e)) : base64Decode e .mime = .ub := by
  have he : noBreaks e ≠ [] := by intro h'; rw [h'] at h; exact not_overruns_nil h
  exact outcome_unique ((C20_exact_lines e .mime (.inr rfl)).2 he) h

/-! ### the frame -/

theorem begin_eq : bytes "---------BEGIN_MATRIX---------\r\n" = strBegin := by decide
theorem end_eq : bytes "\r\n---------END_MATRIX---------" = strEnd := by decide
theorem param_eq : bytes "__PARAMETERS__" = sectionParameters := by decide
theorem size_eq : bytes "__SIZE__" = sectionSize := by decide
theorem type_eq : bytes "__ENCODE_TYPE__" = sectionEncodeType := by decide

/-- `DecodeHash` from the decoded body on -/
def afterBody (p : Platform) (al : Alloc) (decoded : List UInt8) : Res BitMatrix := do
  let params ← substrFrom decoded (subSz decoded.length parametersLen)
  if contains params sectionParameters = false then .throw .invalidArgument
  else
  let params ← substrFrom params sectionParameters.length
  let s ← substr params 0 sectionSize.length
  if s ≠ sectionSize then .throw .invalidArgument
  else
  let params ← substrFrom params sectionSize.length
  let szText ← substr params 0 24
  let sz ← base64Decode szText .standard
  let (colCnt, rowCnt) ← decodeSz p sz
  let params ← substrFrom params 24
  let t ← substr params 0 sectionEncodeType.length
  if t ≠ sectionEncodeType then .throw .invalidArgument
  else
  let params ← substrFrom params sectionEncodeType.length
  let c ← Res.idx params 0
  let (isRle, _isBase64) ← decodeEncodings c
  let payload ← substr decoded 0 (subSz decoded.length parametersLen)
  if isRle then do
    let code ← base64Decode payload .standard
    Rle.decodeMatrix al code rowCnt colCnt
  else do
    let m ← BitMatrix.fromString al payload rowCnt.toNat colCnt.toNat
    .ok (moveNewB m).1

theorem decodeHash_after (p : Platform) (al : Alloc) (R : List UInt8) :
    decodeHash p al (strBegin ++ R ++ strEnd) = (base64Decode R .radix64 >>= afterBody p al) := decodeHash_frame p al R

theorem after_short (p : Platform) (al : Alloc) (D : List UInt8) (h : D.length < 62) :
    afterBody p al D = .throw .outOfRange := by
  unfold afterBody
  have : substrFrom D (subSz D.length parametersLen) = .throw .outOfRange := by
    unfold substrFrom
    rw [parametersLen_eq, if_pos]
    simp only [subSz]
    rw [if_neg (by omega), show sz64 = 18446744073709551616 by simp [sz64]]
    omega
  rw [this]; rfl

theorem framed_unique {h b b' : List UInt8} (h1 : Framed h b) (h2 : Framed h b') : b = b' := by
  have e := h1.2.symm.trans h2.2
  have e := List.append_cancel_right e
  rw [List.append_assoc, List.append_assoc] at e
  have e := List.append_cancel_left e
  have hl : b.length = b'.length := by
    have := congrArg List.length e
    simp only [List.length_append, Props.crcText_length] at this; omega
  exact (List.append_inj e hl).1

/-- every text: not framed and refused, or framed and its body is decoded -/
theorem frame_cases (p : Platform) (al : Alloc) (h : List UInt8) (hl : h.length < 2 ^ 32) :
    ((¬ ∃ b, Framed h b) ∧ ∃ e, decodeHash p al h = .throw e) ∨
    ∃ b, Framed h b ∧ decodeHash p al h = (base64Decode b .mime >>= afterBody p al) := by
  have framedLen : ∀ b, Framed h b → h.take 32 = strBegin ∧ h.drop (h.length - 30) = strEnd ∧ 71 ≤ h.length := by
    rintro b ⟨hb, e⟩
    rw [begin_eq, end_eq] at e
    have hp : 0 < b.length := List.length_pos_iff.mpr hb
    have hlen : h.length = 70 + b.length := by
      rw [e]; simp only [List.length_append, strBegin_length, strEnd_length, Props.crcText_length]; omega
    refine ⟨?_, ?_, by omega⟩
    · rw [e, List.append_assoc, List.append_assoc]; exact List.take_left' strBegin_length
    · rw [hlen, e]; apply List.drop_left'
      simp only [List.length_append, strBegin_length, Props.crcText_length]; omega
  by_cases hb : h.take 32 = strBegin
  swap
  · exact .inl ⟨fun ⟨b, hf⟩ => hb (framedLen b hf).1, _, decodeHash_noBegin p al h hb⟩
  have h32 : 32 ≤ h.length := by
    have := congrArg List.length hb
    rw [strBegin_length] at this; simp at this; omega
  by_cases he : h.drop (h.length - 30) = strEnd
  swap
  · exact .inl ⟨fun ⟨b, hf⟩ => he (framedLen b hf).2.1, _, decodeHash_noEnd p al h (by omega) he⟩
  by_cases h62 : 62 ≤ h.length
  · have hsplit : h = strBegin ++ (h.drop 32).take (h.length - 62) ++ strEnd := by
      have e1 : h = h.take 32 ++ h.drop 32 := (List.take_append_drop _ _).symm
      have e2 : h.drop 32 = (h.drop 32).take (h.length - 62) ++ (h.drop 32).drop (h.length - 62) :=
        (List.take_append_drop _ _).symm
      rw [List.drop_drop, show 32 + (h.length - 62) = h.length - 30 by omega, he] at e2
      rw [List.append_assoc, ← e2, ← hb, List.take_append_drop]
    generalize hRdef : (h.drop 32).take (h.length - 62) = R at hsplit
    have hRl : R.length = h.length - 62 := by rw [← hRdef]; simp; omega
    have hR : decodeHash p al h = (base64Decode R .radix64 >>= afterBody p al) := by rw [hsplit, decodeHash_after]
    by_cases h70 : R.length ≤ 8
    · refine .inl ⟨fun ⟨b, hf⟩ => by have := (framedLen b hf).2.2; omega, ?_⟩
      rw [hR]
      by_cases h0 : R = []
      · subst h0
        refine ⟨.outOfRange, ?_⟩
        rw [C22_empty.2, Res.ok_bind, after_short _ _ _ (by simp)]
      · refine ⟨.invalidArgument, ?_⟩
        simp [base64Decode, radix64Decode, h0, h70]
    · have hs : R = R.take (R.length - 8) ++ R.drop (R.length - 8) := (List.take_append_drop _ _).symm
      have hne : R.take (R.length - 8) ≠ [] := by
        intro hh; have := congrArg List.length hh; simp at this; omega
      have h8 : (R.drop (R.length - 8)).length = 8 := by simp; omega
      have hr := radix64Decode_split _ (R.drop (R.length - 8)) hne (by simp; omega) h8
      rw [← hs] at hr
      by_cases hc : checksumText (R.take (R.length - 8)) = R.drop (R.length - 8)
      · rw [if_neg (by simp [hc])] at hr
        refine .inr ⟨R.take (R.length - 8), ⟨hne, ?_⟩, ?_⟩
        · rw [begin_eq, end_eq, hc, List.append_assoc strBegin, ← hs]; exact hsplit
        · rw [hR]; show (radix64Decode R >>= _) = _; rw [hr]; rfl
      · rw [if_pos hc] at hr
        refine .inl ⟨?_, .runtimeError, ?_⟩
        · rintro ⟨b, _, e⟩
          rw [begin_eq, end_eq, hsplit] at e
          have e := List.append_cancel_right e
          rw [List.append_assoc] at e
          have e := List.append_cancel_left e
          apply hc
          have hlb : R.length = b.length + 8 := by rw [e]; simp [Props.crcText_length]
          rw [e, List.take_left' (by simp [Props.crcText_length]), List.drop_left' (by simp [Props.crcText_length])]
        · rw [hR]; show (radix64Decode R >>= _) = _; rw [hr]; rfl
  · refine .inl ⟨fun ⟨b, hf⟩ => by have := (framedLen b hf).2.2; omega, .runtimeError, ?_⟩
    have hov : h.length = 60 := by
      by_contra hne60
      have hx : h[h.length - 30]? = strEnd[0]? := by
        rw [← he, List.getElem?_drop]; simp
      have hy : h[h.length - 30]? = strBegin[h.length - 30]? := by
        rw [← hb, List.getElem?_take, if_pos (by omega)]
      rw [hy] at hx
      have hall : ∀ k, k < 32 → 2 ≤ k → k ≠ 30 → strBegin[k]? ≠ strEnd[0]? := by decide
      exact hall (h.length - 30) (by omega) (by omega) (by omega) hx
    have hd : base64Decode (lit "---------END_MATRIX---------") .radix64 = .throw .runtimeError := by
      decide +kernel
    have hxi : h.drop 32 = lit "---------END_MATRIX---------" := by
      have : h.drop 32 = strEnd.drop 2 := by rw [← he, List.drop_drop, hov]
      rw [this]; decide
    have hne : h ≠ [] := by rintro rfl; simp at hov
    unfold decodeHash
    rw [if_neg hne, substr_ok (by omega), Res.ok_bind, List.drop_zero, strBegin_length,
      if_neg (by simp [hb]), strEnd_length, subSz_le (by omega), substr_ok (by omega), Res.ok_bind]
    rw [he, List.take_of_length_le (by rw [strEnd_length]),
      if_neg (by simp), hov, substr_ok (by omega), Res.ok_bind, hxi, List.take_of_length_le]
    · rw [hd]; rfl
    · have : (lit "---------END_MATRIX---------").length = 28 := by decide
      rw [this]; decide +kernel

/-! ### the sections -/

theorem contains_iff (s t : List UInt8) : contains s t = true ↔ t <:+: s := by
  simp only [contains, List.any_eq_true, List.mem_range, List.isPrefixOf_iff_prefix]
  constructor
  · rintro ⟨i, _, u, hu⟩
    exact ⟨s.take i, u, by rw [List.append_assoc, hu, List.take_append_drop]⟩
  · rintro ⟨a, u, rfl⟩
    exact ⟨a.length, by simp; omega, by rw [List.append_assoc, List.drop_left' rfl]; exact ⟨u, rfl⟩⟩

/-- the end of `DecodeHash` -/
def finish (al : Alloc) (payload : List UInt8) (col row : UInt32) (c : UInt8) : Res BitMatrix :=
  if c.toNat.testBit 1 then do
    let code ← base64Decode payload .standard
    Rle.decodeMatrix al code row col
  else do
    let m ← BitMatrix.fromString al payload row.toNat col.toNat
    .ok (moveNewB m).1

theorem after_split (p : Platform) (al : Alloc) {payload head a szText t : List UInt8} {c : UInt8} (h1 : head.length = 14)
    (h2 : a.length = 8) (h3 : szText.length = 24) (h4 : t.length = 15) :
    afterBody p al (payload ++ (head ++ a ++ szText ++ (t ++ [c]))) =
      if contains (head ++ a ++ szText ++ (t ++ [c])) sectionParameters = false then .throw .invalidArgument
      else if a ≠ sectionSize then .throw .invalidArgument
      else base64Decode szText .standard >>= fun sz => decodeSz p sz >>= fun cr =>
        if t ≠ sectionEncodeType then .throw .invalidArgument else finish al payload cr.1 cr.2 c := by
  have hl : (payload ++ (head ++ a ++ szText ++ (t ++ [c]))).length = payload.length + 62 := by
    simp [h1, h2, h3, h4]
  have hsub : subSz (payload ++ (head ++ a ++ szText ++ (t ++ [c]))).length parametersLen = payload.length := by
    rw [subSz_le (by rw [hl, parametersLen_eq]; omega), hl, parametersLen_eq]; omega
  unfold afterBody
  rw [hsub, substrFrom_ok (by omega), Res.ok_bind, List.drop_left' rfl]
  by_cases ha : contains (head ++ a ++ szText ++ (t ++ [c])) sectionParameters = false
  · rw [if_pos ha, if_pos ha]
  rw [if_neg ha, if_neg ha]
  by_cases hb : a ≠ sectionSize
  · rw [if_pos hb, substrFrom_ok (by simp [sp_length, h1]), Res.ok_bind, sp_length, List.append_assoc, List.append_assoc,
      List.drop_left' h1, substr_ok (by omega), Res.ok_bind, List.drop_zero, ss_length, List.take_left' h2, if_pos hb]
  · rw [if_neg hb, substrFrom_ok (by simp [sp_length, h1]), Res.ok_bind, sp_length, List.append_assoc, List.append_assoc,
      List.drop_left' h1, substr_ok (by omega), Res.ok_bind, List.drop_zero, ss_length, List.take_left' h2, if_neg hb,
      substrFrom_ok (by simp [h2]), Res.ok_bind, List.drop_left' h2, substr_ok (by omega), Res.ok_bind, List.drop_zero,
      List.take_left' h3]
    congr 1
    funext sz
    congr 1
    funext ⟨col, row⟩
    dsimp only
    rw [substrFrom_ok (by simp [h3]), Res.ok_bind, List.drop_left' h3, substr_ok (by omega), Res.ok_bind,
      List.drop_zero, se_length, List.take_left' h4]
    by_cases ht : t ≠ sectionEncodeType
    · rw [if_pos ht, if_pos ht]
    rw [if_neg ht, if_neg ht, substrFrom_ok (by simp [h4]), Res.ok_bind, List.drop_left' h4, Res.idx_of_lt _ _ (by simp), Res.ok_bind,
      decodeEncodings_eq, Res.ok_bind, substr_ok (by omega), Res.ok_bind, List.drop_zero, List.take_left' rfl]
    rfl

/-- enough bytes can be cut into sections -/
theorem cut (D : List UInt8) (h : 62 ≤ D.length) : ∃ payload head a szText t : List UInt8, ∃ c : UInt8, head.length = 14 ∧
    a.length = 8 ∧ szText.length = 24 ∧ t.length = 15 ∧ D = payload ++ (head ++ a ++ szText ++ (t ++ [c])) := by
  obtain ⟨c, hc⟩ : ∃ c, (D.drop (D.length - 1)) = [c] := List.length_eq_one_iff.mp (by simp; omega)
  refine ⟨D.take (D.length - 62), (D.drop (D.length - 62)).take 14, (D.drop (D.length - 48)).take 8, (D.drop (D.length - 40)).take 24,
    (D.drop (D.length - 16)).take 15, c, by simp; omega, by simp; omega, by simp; omega, by simp; omega, ?_⟩
  have st : ∀ i j : Nat, j ≤ i → i ≤ D.length → D.drop (D.length - i) = (D.drop (D.length - i)).take (i - j) ++ D.drop (D.length - j) := by
    intro i j hj hi
    have e : D.drop (D.length - j) = (D.drop (D.length - i)).drop (i - j) := by
      rw [List.drop_drop]; congr 1; omega
    rw [e, List.take_append_drop]
  rw [← hc, List.append_assoc, List.append_assoc]
  have e1 := st 16 1 (by omega) (by omega)
  have e2 := st 40 16 (by omega) (by omega)
  have e3 := st 48 40 (by omega) (by omega)
  have e4 := st 62 48 (by omega) (by omega)
  simp only [show 16 - 1 = 15 from rfl, show 40 - 16 = 24 from rfl, show 48 - 40 = 8 from rfl, show 62 - 48 = 14 from rfl] at e1 e2 e3 e4
  rw [← e1, ← e2, ← e3, ← e4, List.take_append_drop]

/-! ### the size field -/

theorem charToSize_bit (p : Platform) (c : UInt8) (j : Nat) (hj : j < 64) :
    (charToSize p c).testBit j = true ↔
      (j < 8 ∧ c.toNat.testBit j = true) ∨ (8 ≤ j ∧ p.charSigned = true ∧ 128 ≤ c.toNat) := by
  have hc := c.toNat_lt
  unfold charToSize
  split_ifs with h
  · have : 2 ^ 64 - 256 + c.toNat = (2 ^ 56 - 1) * 2 ^ 8 + c.toNat := by omega
    rw [this, ← Nat.shiftLeft_eq, Nat.shiftLeft_add_eq_or_of_lt (by omega), Nat.testBit_or, Nat.testBit_shiftLeft,
      Nat.testBit_two_pow_sub_one]
    rcases Nat.lt_or_ge j 8 with h8 | h8
    · simp [h8, show ¬ 8 ≤ j by omega]
    · have : c.toNat.testBit j = false := Nat.testBit_lt_two_pow (lt_of_lt_of_le (by omega : c.toNat < 2 ^ 8) (Nat.pow_le_pow_right (by omega) h8))
      simp [h8, this, show ¬ j < 8 by omega, h.1, h.2, show j - 8 < 56 by omega]
  · rcases Nat.lt_or_ge j 8 with h8 | h8
    · simp [h8, show ¬ 8 ≤ j by omega]
    · have : c.toNat.testBit j = false := Nat.testBit_lt_two_pow (lt_of_lt_of_le (by omega : c.toNat < 2 ^ 8) (Nat.pow_le_pow_right (by omega) h8))
      simp only [this, show ¬ j < 8 by omega, false_and, false_or, h8, true_and, Bool.false_eq_true, false_iff]
      exact h

theorem shl64_any {p : Platform} (hp : p.maskedShift = true) (w o : Nat) :
    shl64 p w (o * 8) = .ok (w * 2 ^ (8 * (o % 8)) % 2 ^ 64) := by
  unfold shl64
  split_ifs with h
  · rw [show o * 8 = 8 * (o % 8) by omega]
  · rw [show o * 8 % 64 = 8 * (o % 8) by omega]

theorem szLoop_bits {p : Platform} (hp : p.maskedShift = true) : ∀ (cs : List UInt8) (o sz : Nat),
    ∃ r, szLoop p cs o sz = .ok r ∧ ∀ k < 64, (r.testBit k = true ↔ sz.testBit k = true ∨
      ∃ i < cs.length, 8 * ((o + i) % 8) ≤ k ∧ (charToSize p (cs.getD i 0)).testBit (k - 8 * ((o + i) % 8)) = true) := by
  intro cs
  induction cs with
  | nil => intro o sz; exact ⟨sz, rfl, fun k _ => by simp⟩
  | cons c cs ih =>
    intro o sz
    rw [szLoop, shl64_any hp, Res.ok_bind]
    obtain ⟨r, e, hr⟩ := ih (o + 1) (sz ||| charToSize p c * 2 ^ (8 * (o % 8)) % 2 ^ 64)
    refine ⟨r, e, fun k hk => ?_⟩
    rw [hr k hk, Nat.testBit_or, Nat.testBit_mod_two_pow, Nat.testBit_mul_two_pow]
    simp only [Bool.or_eq_true, Bool.and_eq_true, decide_eq_true_eq, hk, true_and]
    constructor
    · rintro ((h | ⟨h1, h2⟩) | ⟨i, hi, h1, h2⟩)
      · exact .inl h
      · exact .inr ⟨0, by simp, by simpa using h1, by simpa using h2⟩
      · exact .inr ⟨i + 1, by simpa using hi, by rwa [show o + (i + 1) = o + 1 + i by omega],
          by rw [show o + (i + 1) = o + 1 + i by omega]; simpa using h2⟩
    · rintro (h | ⟨i, hi, h1, h2⟩)
      · exact .inl (.inl h)
      · cases i with
        | zero => exact .inl (.inr ⟨by simpa using h1, by simpa using h2⟩)
        | succ i =>
          rw [show o + (i + 1) = o + 1 + i by omega] at h1 h2
          exact .inr ⟨i, by simpa using hi, h1, by simpa using h2⟩

theorem decodeSz_bits {p : Platform} (hp : p.maskedShift = true) (s : List UInt8) (hs : s.length = 16) :
    ∃ r c : UInt32, decodeSz p s = .ok (c, r) ∧ ∀ k < 32, (c.toNat.testBit k = true ↔ SizeBit p.charSigned s k) ∧
      (r.toNat.testBit k = true ↔ SizeBit p.charSigned s (k + 32)) := by
  obtain ⟨x, e, hx⟩ := szLoop_bits hp s 0 0
  refine ⟨UInt32.ofNat (x / 2 ^ 32), UInt32.ofNat x, by simp [decodeSz, hs, e], ?_⟩
  have key : ∀ k < 64, (x.testBit k = true ↔ SizeBit p.charSigned s k) := by
    intro k hk
    rw [hx k hk]
    simp only [Nat.zero_testBit, Bool.false_eq_true, false_or, hs, SizeBit, Nat.zero_add]
    refine exists_congr fun i => and_congr_right fun hi => and_congr_right fun h8 => ?_
    rw [charToSize_bit _ _ _ (by omega)]
    constructor
    · rintro (⟨a, b⟩ | ⟨a, b⟩)
      · exact .inl ⟨by omega, b⟩
      · exact .inr ⟨by omega, b⟩
    · rintro (⟨a, b⟩ | ⟨a, b⟩)
      · exact .inl ⟨by omega, b⟩
      · exact .inr ⟨by omega, b⟩
  intro k hk
  constructor
  · rw [UInt32.toNat_ofNat', Nat.testBit_mod_two_pow]
    simp only [hk, decide_true, Bool.true_and]
    exact key k (by omega)
  · rw [UInt32.toNat_ofNat', Nat.testBit_mod_two_pow, Nat.testBit_div_two_pow]
    simp only [hk, decide_true, Bool.true_and]
    exact key (k + 32) (by omega)

/-! ### the outcome -/

theorem reads_ne {e d : List UInt8} (h : Reads e d) : d ≠ [] := by
  rintro rfl
  obtain ⟨he, h⟩ := h
  unfold DecodeOutcome at h
  dsimp only at h
  split at h
  · rename_i hx
    split_ifs at h with h4
    · obtain ⟨d, hd, hl, _⟩ := h
      cases hd
      have hp : (e.takeWhile Spec.isAlpha).length = 0 := by simp only [List.length_nil] at hl; omega
      rw [hp] at hx
      exact he (by simpa using hx)
  · split_ifs at h with h4
    · obtain ⟨d, hd, hl, _⟩ := h
      cases hd
      have h2 := h4.1
      simp only [List.length_nil] at hl; omega

theorem carries_after (p : Platform) (al : Alloc) {h D : List UInt8} (hl : h.length < 2 ^ 32) (hc : Carries h D) :
    decodeHash p al h = afterBody p al D := by
  obtain ⟨b, hf, hr⟩ := hc
  rcases frame_cases p al h hl with ⟨hn, _⟩ | ⟨b', hf', e⟩
  · exact absurd ⟨b, hf⟩ hn
  · obtain rfl := framed_unique hf hf'
    rw [e, reads_mime hr, Res.ok_bind]

theorem after_sections (p : Platform) (al : Alloc) {D payload szText : List UInt8} {flag : UInt8} (hs : Sections D payload szText flag) :
    afterBody p al D = (base64Decode szText .standard >>= fun sz => decodeSz p sz >>= fun cr => finish al payload cr.1 cr.2 flag) := by
  obtain ⟨head, h1, h3, _, rfl, hp⟩ := hs
  rw [size_eq, type_eq, param_eq] at *
  rw [after_split p al h1 ss_length h3 se_length, if_neg (by rw [(contains_iff _ _).mpr hp]; simp), if_neg (by simp)]
  simp

theorem bits_inj {a b : Nat} (ha : a < 2 ^ 32) (hb : b < 2 ^ 32) (h : ∀ k < 32, (a.testBit k = true ↔ b.testBit k = true)) : a = b := by
  apply Nat.eq_of_testBit_eq
  intro k
  rcases Nat.lt_or_ge k 32 with hk | hk
  · exact Bool.eq_iff_iff.mpr (h k hk)
  · rw [Nat.testBit_lt_two_pow (lt_of_lt_of_le ha (Nat.pow_le_pow_right (by omega) hk)),
      Nat.testBit_lt_two_pow (lt_of_lt_of_le hb (Nat.pow_le_pow_right (by omega) hk))]

theorem size_decode {p : Platform} (hp : p.maskedShift = true) {szText : List UInt8} {r c : Nat} (h : Size p.charSigned szText r c)
    (k : UInt32 × UInt32 → Res BitMatrix) :
    ∃ r' c' : UInt32, r'.toNat = r ∧ c'.toNat = c ∧
      (base64Decode szText .standard >>= fun sz => decodeSz p sz >>= k) = k (c', r') := by
  obtain ⟨s, hr, hs, h1, h2, hb⟩ := h
  obtain ⟨r', c', e, hb'⟩ := decodeSz_bits hp s hs
  refine ⟨r', c', ?_, ?_, ?_⟩
  · exact bits_inj r'.toNat_lt h1 fun k hk => ((hb' k hk).2).trans ((hb k hk).2).symm
  · exact bits_inj c'.toNat_lt h2 fun k hk => ((hb' k hk).1).trans ((hb k hk).1).symm
  · rw [reads_standard hr, Res.ok_bind, e, Res.ok_bind]

/-- **C70** A text that carries a run-length code yields the matrix of the announced size with the cells of the code, row by
row; surplus runs are ignored, missing cells are 0. -/
theorem C70_code (p : Platform) (hp : p.maskedShift = true) (h : List UInt8) (hl : h.length < 2 ^ 32) (r c : Nat) (code : List UInt8)
    (hc : IsCode p.charSigned h r c code) :
    ∃ m, decodeHash p Alloc.ok h = .ok m ∧ Built m ∧ m.isize = r ∧ m.jsize = c ∧
      ∀ i j, i < r → j < c → BitMatrix.get m i j = .ok ((expand code).getD (i * c + j) false) := by
  obtain ⟨D, payload, szText, flag, h1, h2, h3, h4, h5⟩ := hc
  obtain ⟨r', c', rfl, rfl, e⟩ := size_decode hp h3 fun cr => finish Alloc.ok payload cr.1 cr.2 flag
  obtain ⟨m, em, hm⟩ := C27_decode_total code (reads_ne h5) r' c'
  refine ⟨m, ?_, hm⟩
  rw [carries_after p _ hl h1, after_sections p _ h2, e]
  simp only [finish, h4, if_true, reads_standard h5, Res.ok_bind, em]

/-- **C70** Raw contents of the announced length give an object with the announced rows and no columns. -/
theorem C70_raw (p : Platform) (hp : p.maskedShift = true) (h : List UInt8) (hl : h.length < 2 ^ 32) (r c : Nat) (payload : List UInt8)
    (hc : IsRaw p.charSigned h r c payload) :
    ∃ m, decodeHash p Alloc.ok h = .ok m ∧ m.isize = r ∧ m.jsize = 0 := by
  obtain ⟨D, szText, flag, h1, h2, h3, h4, h5, h6⟩ := hc
  obtain ⟨r', c', rfl, rfl, e⟩ := size_decode hp h3 fun cr => finish Alloc.ok payload cr.1 cr.2 flag
  obtain ⟨m, em, hm, _⟩ := (C14_fromString payload r'.toNat c'.toNat).2.2 h5 h6
  refine ⟨(moveNewB m).1, ?_, hm, rfl⟩
  rw [carries_after p _ hl h1, after_sections p _ h2, e]
  simp only [finish, h4, Bool.false_eq_true, if_false, em, Res.ok_bind]

/-- **C70** Three kinds of texts are read beyond an end. -/
theorem C70_overrun (p : Platform) (hp : p.maskedShift = true) (h : List UInt8) (hl : h.length < 2 ^ 32)
    (hc : IsOverrun p.charSigned h) : decodeHash p Alloc.ok h = .ub := by
  cases hc with
  | body body h1 h2 =>
    rcases frame_cases p Alloc.ok h hl with ⟨hn, _⟩ | ⟨b', hf', e⟩
    · exact absurd ⟨body, h1⟩ hn
    · obtain rfl := framed_unique h1 hf'
      rw [e, overruns_mime h2]; rfl
  | code D payload szText flag r c h1 h2 h3 h4 h5 =>
    obtain ⟨r', c', rfl, rfl, e⟩ := size_decode hp h3 fun cr => finish Alloc.ok payload cr.1 cr.2 flag
    rw [carries_after p _ hl h1, after_sections p _ h2, e]
    simp only [finish, h4, if_true, overruns_standard h5]; rfl
  | raw D payload szText flag r c h1 h2 h3 h4 h5 h6 =>
    obtain ⟨r', c', rfl, rfl, e⟩ := size_decode hp h3 fun cr => finish Alloc.ok payload cr.1 cr.2 flag
    rw [carries_after p _ hl h1, after_sections p _ h2, e]
    simp only [finish, h4, Bool.false_eq_true, if_false, (C14_fromString payload r'.toNat c'.toNat).2.1 h5 h6]; rfl

/-- 24 characters never overrun -/
theorem not_overruns_24 {e : List UInt8} (h : e.length = 24) : ¬ Overruns e := by
  intro ho
  unfold Overruns DecodeOutcome at ho
  dsimp only at ho
  split at ho
  · rename_i hx
    have hlen : (e.takeWhile Spec.isAlpha).length = 24 := by
      have a1 := (List.takeWhile_sublist Spec.isAlpha (l := e)).length_le
      have a2 : e.length ≤ (e.takeWhile Spec.isAlpha).length := by simpa using hx
      omega
    rw [hlen] at ho
    simp at ho
  · split_ifs at ho
    · obtain ⟨d, hd, _⟩ := ho; cases hd

/-- **C70** Every other text makes `DecodeHash` throw. -/
theorem C70_otherwise (p : Platform) (hp : p.maskedShift = true) (h : List UInt8) (hl : h.length < 2 ^ 32)
    (h1 : ∀ r c code, ¬ IsCode p.charSigned h r c code) (h2 : ∀ r c payload, ¬ IsRaw p.charSigned h r c payload)
    (h3 : ¬ IsOverrun p.charSigned h) : ∃ e, decodeHash p Alloc.ok h = .throw e := by
  rcases frame_cases p Alloc.ok h hl with ⟨_, ht⟩ | ⟨b, hf, e⟩
  · exact ht
  rcases mime_cases b with ⟨D, hD, eD⟩ | ⟨ho, _⟩ | ⟨_, _, x, ex⟩
  rotate_left
  · exact absurd (.body b hf ho) h3
  · exact ⟨x, by rw [e, ex]; rfl⟩
  rw [e, eD, Res.ok_bind]
  have hcar : Carries h D := ⟨b, hf, hD⟩
  rcases Nat.lt_or_ge D.length 62 with hs | hs
  · exact ⟨_, after_short p _ D hs⟩
  obtain ⟨payload, head, a, szText, t, flag, l1, l2, l3, l4, hDe⟩ := cut D hs
  rw [hDe, after_split p _ l1 l2 l3 l4]
  by_cases hpar : contains (head ++ a ++ szText ++ (t ++ [flag])) sectionParameters = false
  · exact ⟨_, if_pos hpar⟩
  rw [if_neg hpar]
  by_cases ha : a = sectionSize
  swap
  · exact ⟨_, if_pos ha⟩
  rw [if_neg (by simp [ha])]
  rcases standard_cases szText with ⟨s, hsr, es⟩ | ⟨ho, _⟩ | ⟨_, _, x, ex⟩
  rotate_left
  · exact absurd ho (not_overruns_24 l3)
  · exact ⟨x, by rw [ex]; rfl⟩
  rw [es, Res.ok_bind]
  by_cases h16 : s.length = 16
  swap
  · exact ⟨.invalidArgument, by simp [decodeSz, h16]⟩
  obtain ⟨r, c, er, hb⟩ := decodeSz_bits hp s h16
  rw [er, Res.ok_bind]
  by_cases ht : t = sectionEncodeType
  swap
  · exact ⟨_, if_pos ht⟩
  rw [if_neg (by simp [ht])]
  have hsec : Sections D payload szText flag := by
    refine ⟨head, l1, l3, by rw [type_eq]; simp [se_length], ?_, ?_⟩
    · rw [size_eq, type_eq, ← ha, ← ht]; exact hDe
    · rw [size_eq, type_eq, param_eq, ← ha, ← ht]
      exact (contains_iff _ _).mp (by simpa using hpar)
  have hsize : Size p.charSigned szText r.toNat c.toNat := ⟨s, hsr, h16, r.toNat_lt, c.toNat_lt, hb⟩
  unfold finish
  cases hf1 : flag.toNat.testBit 1
  · simp only [Bool.false_eq_true, if_false]
    by_cases hlen : payload.length = r.toNat * c.toNat % 2 ^ 32
    · rcases Nat.lt_or_ge payload.length ((r.toNat + 7) / 8 * ((c.toNat + 7) / 8)) with hlt | hge
      · exact absurd (.raw D payload szText flag _ _ hcar hsec hsize hf1 hlen hlt) h3
      · exact absurd ⟨D, szText, flag, hcar, hsec, hsize, hf1, hlen, hge⟩ (h2 _ _ payload)
    · exact ⟨_, by rw [(C14_fromString payload r.toNat c.toNat).1 hlen]; rfl⟩
  · simp only [if_true]
    rcases standard_cases payload with ⟨code, hcode, _⟩ | ⟨ho, _⟩ | ⟨_, _, x, ex⟩
    · exact absurd ⟨D, payload, szText, flag, hcar, hsec, hsize, hf1, hcode⟩ (h1 _ _ code)
    · exact absurd (.code D payload szText flag _ _ hcar hsec hsize hf1 ho) h3
    · exact ⟨x, by rw [ex]; rfl⟩

theorem szLoop_strict {p : Platform} (hp : p.maskedShift = false) : ∀ (cs : List UInt8) (o sz : Nat), o ≤ 8 → 8 < o + cs.length →
    szLoop p cs o sz = .ub := by
  intro cs
  induction cs with
  | nil => intro o sz h1 h2; simp at h2; omega
  | cons c cs ih =>
    intro o sz h1 h2
    rw [szLoop]
    by_cases h8 : o = 8
    · subst h8; rw [shl64_ub hp _ _ (by omega)]; rfl
    · have : shl64 p (charToSize p c) (o * 8) = .ok (charToSize p c * 2 ^ (o * 8) % 2 ^ 64) := by
        unfold shl64; rw [if_pos (by omega)]
      rw [this, Res.ok_bind]
      exact ih _ _ (by omega) (by simp only [List.length_cons] at h2; omega)

/-- **C70** The flag character: run lengths are bit 1, Base64 is bit 0, all others are clear; reading it back, the run-length flag
decides both (LayoutMatrix.cpp:172 asks for the wrong bit). -/
theorem C70_flag (rle b64 : Bool) : ∃ v : UInt8, encodeEncodings rle b64 = .ok v ∧ v.toNat = (if rle then 2 else 0) + (if b64 then 1 else 0) ∧
    decodeEncodings v = .ok (rle, rle) := by
  cases rle <;> cases b64 <;> exact ⟨_, rfl, by decide, by decide⟩

/-- **C70** By the shift rules of the standard no text can be decoded: it is undefined if the armored body overruns, or as soon
as the size section is there and its text stands for sixteen bytes; all other texts throw. -/
theorem C70_strict (p : Platform) (hp : p.maskedShift = false) (al : Alloc) (h : List UInt8) (hl : h.length < 2 ^ 32) :
    ((∃ body, Framed h body ∧ Overruns (noBreaks body)) ∨
      (∃ D payload szText rest s, Carries h D ∧ SizeSection D payload szText rest ∧ Reads szText s ∧ s.length = 16) →
        decodeHash p al h = .ub) ∧
    (¬ ((∃ body, Framed h body ∧ Overruns (noBreaks body)) ∨
      (∃ D payload szText rest s, Carries h D ∧ SizeSection D payload szText rest ∧ Reads szText s ∧ s.length = 16)) →
        ∃ e, decodeHash p al h = .throw e) := by
  constructor
  · rintro (⟨b, hf, ho⟩ | ⟨D, payload, szText, rest, s, hc, ⟨head, h1, h3, h4, rfl, hpar⟩, hr, h16⟩)
    · rcases frame_cases p al h hl with ⟨hn, _⟩ | ⟨b', hf', e⟩
      · exact absurd ⟨b, hf⟩ hn
      · obtain rfl := framed_unique hf hf'
        rw [e, overruns_mime ho]; rfl
    · obtain ⟨t, flag, rfl⟩ : ∃ t flag, rest = t ++ [flag] := by
        have hne : rest ≠ [] := by rintro rfl; simp at h4
        exact ⟨rest.dropLast, rest.getLast hne, (List.dropLast_append_getLast hne).symm⟩
      rw [carries_after p al hl hc]
      rw [size_eq, param_eq] at *
      rw [after_split p al h1 ss_length h3 (by simpa using h4), if_neg (by rw [(contains_iff _ _).mpr hpar]; simp),
        if_neg (by simp), reads_standard hr, Res.ok_bind, decodeSz, if_neg (by simp [h16]),
        szLoop_strict hp s 0 0 (by omega) (by omega)]
      rfl
  · intro hno
    rcases frame_cases p al h hl with ⟨_, ht⟩ | ⟨b, hf, e⟩
    · exact ht
    rcases mime_cases b with ⟨D, hD, eD⟩ | ⟨ho, _⟩ | ⟨_, _, x, ex⟩
    rotate_left
    · exact absurd (.inl ⟨b, hf, ho⟩) hno
    · exact ⟨x, by rw [e, ex]; rfl⟩
    rw [e, eD, Res.ok_bind]
    have hcar : Carries h D := ⟨b, hf, hD⟩
    rcases Nat.lt_or_ge D.length 62 with hs | hs
    · exact ⟨_, after_short p _ D hs⟩
    obtain ⟨payload, head, a, szText, t, flag, l1, l2, l3, l4, hDe⟩ := cut D hs
    rw [hDe, after_split p _ l1 l2 l3 l4]
    by_cases hpar : contains (head ++ a ++ szText ++ (t ++ [flag])) sectionParameters = false
    · exact ⟨_, if_pos hpar⟩
    rw [if_neg hpar]
    by_cases ha : a = sectionSize
    swap
    · exact ⟨_, if_pos ha⟩
    rw [if_neg (by simp [ha])]
    rcases standard_cases szText with ⟨s, hsr, es⟩ | ⟨ho, _⟩ | ⟨_, _, x, ex⟩
    · rw [es, Res.ok_bind]
      by_cases h16 : s.length = 16
      · refine absurd (.inr ⟨D, payload, szText, t ++ [flag], s, hcar, ⟨head, l1, l3, by simp [l4], ?_, ?_⟩, hsr, h16⟩) hno
        · rw [size_eq, ← ha]; exact hDe
        · rw [size_eq, param_eq, ← ha]
          exact (contains_iff _ _).mp (by simpa using hpar)
      · exact ⟨.invalidArgument, by simp [decodeSz, h16]⟩
    · exact absurd ho (not_overruns_24 l3)
    · exact ⟨x, by rw [ex]; rfl⟩

/-- **C70** `ReadFile` of a file with any contents: it reads beyond an end, loads a matrix with cells and returns true, returns
false for a code without cells and for raw contents, and throws in all other cases; in the last two the object is unchanged. -/
theorem C70_read_file (p : Platform) (hp : p.maskedShift = true) (fs : Fs) (name content : List UInt8) (hn : name ≠ [])
    (hr : fs.readable name = true) (hf : fs.files name = some content) (hl : content.length < 2 ^ 32) (m0 : BitMatrix) :
    (IsOverrun p.charSigned content ∧ readFile p Alloc.ok fs name m0 = .ub) ∨
    (∃ r c code m, IsCode p.charSigned content r c code ∧ 0 < r ∧ 0 < c ∧ readFile p Alloc.ok fs name m0 = .ok true m ∧
      m.isize = r ∧ m.jsize = c ∧ ∀ i j, i < r → j < c → BitMatrix.get m i j = .ok ((expand code).getD (i * c + j) false)) ∨
    (((∃ r c code, IsCode p.charSigned content r c code ∧ (r = 0 ∨ c = 0)) ∨ ∃ r c payload, IsRaw p.charSigned content r c payload) ∧
      readFile p Alloc.ok fs name m0 = .ok false m0) ∨
    ((∀ r c code, ¬ IsCode p.charSigned content r c code) ∧ (∀ r c payload, ¬ IsRaw p.charSigned content r c payload) ∧
      ¬ IsOverrun p.charSigned content ∧ ∃ e, readFile p Alloc.ok fs name m0 = .throw e m0) := by
  have hrf : readFile p Alloc.ok fs name m0 = match decodeHash p Alloc.ok content with
      | .ub => .ub
      | .throw e => .throw e m0
      | .ok d => if opNot d then .ok false m0 else .ok true (assignMoveL m0 d).1 := by
    unfold readFile
    rw [if_neg hn, if_neg (by simp [hr]), hf]
    dsimp only
    cases decodeHash p Alloc.ok content <;> rfl
  by_cases h3 : IsOverrun p.charSigned content
  · exact .inl ⟨h3, by rw [hrf, C70_overrun p hp content hl h3]⟩
  by_cases h1 : ∃ r c code, IsCode p.charSigned content r c code
  · obtain ⟨r, c, code, hc⟩ := h1
    obtain ⟨m, e, hb, d1, d2, hg⟩ := C70_code p hp content hl r c code hc
    by_cases h0 : 0 < r ∧ 0 < c
    · have : opNot m = false := by rw [opNot_eq hb.inv.1]; simp; omega
      refine .inr (.inl ⟨r, c, code, m, hc, h0.1, h0.2, ?_, d1, d2, hg⟩)
      rw [hrf, e]; simp only [this]; rfl
    · have : opNot m = true := by rw [opNot_eq hb.inv.1]; simp; omega
      refine .inr (.inr (.inl ⟨.inl ⟨r, c, code, hc, by omega⟩, ?_⟩))
      rw [hrf, e]; simp only [this, if_true]
  by_cases h2 : ∃ r c payload, IsRaw p.charSigned content r c payload
  · obtain ⟨r, c, payload, hc⟩ := h2
    obtain ⟨m, e, d1, d2⟩ := C70_raw p hp content hl r c payload hc
    have : opNot m = true := by simp [opNot, d2]
    refine .inr (.inr (.inl ⟨.inr ⟨r, c, payload, hc⟩, ?_⟩))
    rw [hrf, e]; simp only [this, if_true]
  · push Not at h1 h2
    obtain ⟨e, he⟩ := C70_otherwise p hp content hl h1 h2 h3
    exact .inr (.inr (.inr ⟨h1, h2, h3, e, by rw [hrf, he]⟩))

/-! ### the cases do occur -/

theorem reads_of_mime {e d : List UInt8} (h : base64Decode e .mime = .ok d) : Reads (noBreaks e) d := by
  rcases mime_cases e with ⟨d', h1, h2⟩ | ⟨_, h2⟩ | ⟨_, _, x, h2⟩
  · rw [h] at h2; rw [Res.ok.inj h2]; exact h1
  · rw [h] at h2; cases h2
  · rw [h] at h2; cases h2

theorem reads_of_standard {e d : List UInt8} (h : base64Decode e .standard = .ok d) : Reads e d := by
  rcases standard_cases e with ⟨d', h1, h2⟩ | ⟨_, h2⟩ | ⟨_, _, x, h2⟩
  · rw [h] at h2; rw [Res.ok.inj h2]; exact h1
  · rw [h] at h2; cases h2
  · rw [h] at h2; cases h2

theorem overruns_of_mime {e : List UInt8} (h : base64Decode e .mime = .ub) : Overruns (noBreaks e) := by
  rcases mime_cases e with ⟨d', h1, h2⟩ | ⟨h1, _⟩ | ⟨_, _, x, h2⟩
  · rw [h] at h2; cases h2
  · exact h1
  · rw [h] at h2; cases h2

/-- 71 characters that are read beyond the end: one digit with the right checksum -/
example : ∃ h, h.length = 71 ∧ IsOverrun true h := by
  refine ⟨_, ?_, .body [65] ⟨by simp, rfl⟩ ?_⟩
  · rw [begin_eq, end_eq]; simp [strBegin_length, strEnd_length, Props.crcText_length]
  · exact overruns_of_mime rfl

/-- one raw cell: the armored text of 63 bytes -/
example : ∃ h, IsRaw true h 1 1 [65] := by
  refine ⟨_, [65, 95, 95, 80, 65, 82, 65, 77, 69, 84, 69, 82, 83, 95, 95, 95, 95, 83, 73, 90, 69, 95, 95, 65, 81, 65, 65, 65, 65, 69, 65, 65, 65, 65, 65, 65, 65, 65, 65, 65, 65, 65, 65, 65, 65, 61, 61, 95, 95, 69, 78, 67, 79, 68, 69, 95, 84, 89, 80, 69, 95, 95, 0], [65, 81, 65, 65, 65, 65, 69, 65, 65, 65, 65, 65, 65, 65, 65, 65, 65, 65, 65, 65, 65, 65, 61, 61], 0,
    ⟨[81, 86, 57, 102, 85, 69, 70, 83, 81, 85, 49, 70, 86, 69, 86, 83, 85, 49, 57, 102, 88, 49, 57, 84, 83, 86, 112, 70, 88, 49, 57, 66, 85, 85, 70, 66, 81, 85, 70, 70, 81, 85, 70, 66, 81, 85, 70, 66, 81, 85, 70, 66, 81, 85, 70, 66, 81, 85, 70, 66, 80, 84, 49, 102, 88, 48, 86, 79, 81, 48, 57, 69, 82, 86, 57, 85, 87, 86, 66, 70, 88, 49, 56, 65], ⟨by simp, rfl⟩,
      reads_of_mime (by decide +kernel)⟩,
    ⟨bytes "__PARAMETERS__", by decide +kernel, rfl, by decide +kernel, by decide +kernel,
      ⟨[], bytes "__SIZE__" ++ [65, 81, 65, 65, 65, 65, 69, 65, 65, 65, 65, 65, 65, 65, 65, 65, 65, 65, 65, 65, 65, 65, 61, 61] ++ (bytes "__ENCODE_TYPE__" ++ [0]), by simp⟩⟩,
    ⟨[1, 0, 0, 0, 1, 0, 0, 0, 0, 0, 0, 0, 0, 0, 0, 0], reads_of_standard (by decide +kernel), rfl, by decide, by decide, ?_⟩, by decide, by decide, by decide⟩
  intro k hk
  unfold SizeBit
  constructor
  all_goals
    interval_cases k <;> decide +kernel

/-- every hash the library makes is a code of that size (here with an unsigned `char`) -/
theorem C70_own_hash (m : BitMatrix) (hm : Built m) (h1 : 0 < m.isize) (h2 : 0 < m.jsize) (h3 : m.isize < 2 ^ 32)
    (h4 : m.jsize < 2 ^ 32) (h : List UInt8) (he : encodeHash m = .ok h) (hl : h.length < 2 ^ 32) : ∃ code, IsCode false h m.isize m.jsize code := by
  obtain ⟨m', e, hs⟩ := C30_roundtrip ⟨false, true⟩ rfl m hm h1 h2 h3 h4 (.inl rfl) h he
  by_cases ho : IsOverrun false h
  · have := C70_overrun ⟨false, true⟩ rfl h hl ho
    rw [e] at this; cases this
  by_cases hr : ∃ r c payload, IsRaw false h r c payload
  · obtain ⟨r, c, pl, hr⟩ := hr
    obtain ⟨m2, e2, _, d⟩ := C70_raw ⟨false, true⟩ rfl h hl r c pl hr
    rw [e] at e2; cases e2
    have := hs.2.1; omega
  by_cases hc : ∃ r c code, IsCode false h r c code
  · obtain ⟨r, c, code, hc⟩ := hc
    obtain ⟨m2, e2, _, d1, d2, _⟩ := C70_code ⟨false, true⟩ rfl h hl r c code hc
    rw [e] at e2; cases e2
    have a := hs.1; have b := hs.2.1
    exact ⟨code, by rw [a, b, d1, d2]; exact hc⟩
  · push Not at hr hc
    obtain ⟨x, hx⟩ := C70_otherwise ⟨false, true⟩ rfl h hl hc hr ho
    rw [e] at hx; cases hx

end Verif.Props
