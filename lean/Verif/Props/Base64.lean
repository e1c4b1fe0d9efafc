import Verif.Proofs.Base64

/-! Properties C17–C23. -/

namespace Verif.Props
open Verif Base64
open Verif.Spec (alphabet padChar sextet isAlpha crc32 b64Text checksumText covered msbBit)

/-- the four encodings without checksum -/
def plainTypes : List EncodeType := [.standard, .url, .mime, .pem]

/-- **C17** Decoding (same type) the encoding of any non-empty byte string returns it exactly. -/
theorem C17_roundtrip (s : List UInt8) (hs : s ≠ []) (t : EncodeType) (ht : t ∈ plainTypes) :
    ∃ e, base64Encode s t = .ok e ∧ base64Decode e t = .ok s := by
  simp only [plainTypes, List.mem_cons, List.not_mem_nil, or_false] at ht
  rcases ht with rfl | rfl | rfl | rfl
  · exact ⟨_, encode_eq false hs, standardDecode_encF false hs⟩
  · exact ⟨_, encode_eq true hs, standardDecode_encF true hs⟩
  · exact ⟨_, encodeSep_eq 76 (by decide) hs, decodeSep_encode 76 (by decide) hs⟩
  · exact ⟨_, encodeSep_eq 64 (by decide) hs, decodeSep_encode 64 (by decide) hs⟩

/-- **C17** the empty string is rejected by all four encoders and decoders. -/
theorem C17_empty_throws (t : EncodeType) (ht : t ∈ plainTypes) :
    base64Encode [] t = .throw .invalidArgument ∧ base64Decode [] t = .throw .invalidArgument := by
  simp only [plainTypes, List.mem_cons, List.not_mem_nil, or_false] at ht
  rcases ht with rfl | rfl | rfl | rfl <;> exact ⟨rfl, rfl⟩

/-- **C18** the standard (`url = false`) and url encodings are RFC 4648: `4⌈n/3⌉` characters, character
`k` is the alphabet letter of the `k`-th 6-bit group of the zero-padded bit string, and the groups past
the end of the message are the padding character. -/
theorem C18_rfc4648 (s : List UInt8) (hs : s ≠ []) (url : Bool) :
    ∃ e, base64Encode s (if url then .url else .standard) = .ok e ∧
      e.length = 4 * ((s.length + 2) / 3) ∧
      ∀ k, k < e.length →
        e[k]? = some (if 6 * k < 8 * s.length then alphabet url (sextet s k) else padChar url) := by
  refine ⟨encF url s, ?_, encF_length url s, encF_getElem url s⟩
  cases url
  · exact encode_eq false hs
  · exact encode_eq true hs

theorem alphabet_ne_pad (url : Bool) (v : Nat) (hv : v < 64) : alphabet url v ≠ padChar url := by
  revert v url
  decide

theorem sextet_lt (s : List UInt8) (k : Nat) : sextet s k < 64 := by
  have h : ∀ n, msbBit s n ≤ 1 := fun n => by unfold msbBit; split <;> omega
  unfold sextet
  have := h (6 * k); have := h (6 * k + 1); have := h (6 * k + 2); have := h (6 * k + 3); have := h (6 * k + 4); have := h (6 * k + 5)
  omega

/-- **C18** the padding characters of an encoding are exactly its last `(3 - n % 3) % 3` characters. -/
theorem C18_padding (s : List UInt8) (hs : s ≠ []) (url : Bool) :
    ∃ e, base64Encode s (if url then .url else .standard) = .ok e ∧
      ∀ k, k < e.length → (e[k]? = some (padChar url) ↔ e.length - (3 - s.length % 3) % 3 ≤ k) := by
  obtain ⟨e, he, hl, h⟩ := C18_rfc4648 s hs url
  refine ⟨e, he, fun k hk => ?_⟩
  rw [h k hk, hl]
  rw [hl] at hk
  by_cases hb : 6 * k < 8 * s.length
  · rw [if_pos hb]
    constructor
    · intro hp
      exact absurd (Option.some.inj hp) (alphabet_ne_pad url _ (sextet_lt s k))
    · intro _; omega
  · rw [if_neg hb]
    constructor
    · intro _; omega
    · intro _; rfl

example : base64Encode [77, 97, 110, 255] .standard =
    .ok [84, 87, 70, 117, 47, 119, 61, 61] := by decide -- "TWFu/w=="

/-- **C19** PEM and MIME: the standard encoding cut into lines of exactly 64 / 76 characters, the last one
non-empty and not longer, joined with CR LF. -/
theorem C19_lines (s : List UInt8) (hs : s ≠ []) (t : EncodeType) (len : Nat)
    (ht : (t = .pem ∧ len = 64) ∨ (t = .mime ∧ len = 76)) :
    ∃ (full : List (List UInt8)) (last : List UInt8) (std : List UInt8),
      base64Encode s .standard = .ok std ∧ full.flatten ++ last = std ∧
      (∀ l ∈ full, l.length = len) ∧ 0 < last.length ∧ last.length ≤ len ∧
      base64Encode s t = .ok ((full.map (· ++ [13, 10])).flatten ++ last) := by
  have hl : 0 < len := by rcases ht with ⟨_, h⟩ | ⟨_, h⟩ <;> omega
  obtain ⟨full, last, h1, h2, h3, h4, h5⟩ := splitLoop_spec len hl (encF false s) (encF_ne_nil false hs)
  refine ⟨full, last, _, encode_eq false hs, h4, h1, h2, h3, ?_⟩
  rcases ht with ⟨rfl, rfl⟩ | ⟨rfl, rfl⟩
  · show encodeWithSeparator s endline 64 = _
    rw [encodeSep_eq 64 hl hs, h5]; rfl
  · show encodeWithSeparator s endline 76 = _
    rw [encodeSep_eq 76 hl hs, h5]; rfl

/-- **C19** deleting CR and LF from the armored text gives the standard encoding. -/
theorem C19_strip (s : List UInt8) (hs : s ≠ []) (t : EncodeType) (ht : t = .pem ∨ t = .mime) :
    ∃ e std, base64Encode s t = .ok e ∧ base64Encode s .standard = .ok std ∧
      e.filter (fun c => c != 13 && c != 10) = std := by
  have h2 : ∀ len (hl : 0 < len),
      (splitLoop endline len hl (encF false s)).filter (fun c => c != 13 && c != 10) = encF false s := by
    intro len hl
    have := filter_splitLoop len hl _ (encF_noCRLF false s)
    rwa [List.filter_filter] at this
  rcases ht with rfl | rfl
  · exact ⟨_, _, encodeSep_eq 64 (by decide) hs, encode_eq false hs, h2 64 (by decide)⟩
  · exact ⟨_, _, encodeSep_eq 76 (by decide) hs, encode_eq false hs, h2 76 (by decide)⟩

/-- **C20** Decoding any non-empty string whose length is a multiple of 4 never has undefined behaviour:
it returns at most 3 bytes per 4 characters or throws `runtime_error`. -/
theorem C20_decode_total (e : List UInt8) (he : e ≠ []) (h4 : e.length % 4 = 0) (t : EncodeType)
    (ht : t = .standard ∨ t = .url) :
    (∃ d, base64Decode e t = .ok d ∧ d.length ≤ 3 * (e.length / 4)) ∨
      base64Decode e t = .throw .runtimeError := by
  have h := decodeLoop_mult4 e h4
  rcases ht with rfl | rfl <;> simpa [base64Decode, standardDecode, he] using h

/-- **C20** a first character outside both alphabets always throws. -/
theorem C20_bad_char (c : UInt8) (e : List UInt8) (hc : isAlpha c = false) :
    base64Decode (c :: e) .standard = .throw .runtimeError := by
  have h := (symb_cases c).2 hc
  show standardDecode (c :: e) = _
  simp only [standardDecode, reduceCtorEq, if_false]
  match e with
  | [] => simp [decodeLoop, h]
  | [a] => simp [decodeLoop, h]
  | [a, b] => simp [decodeLoop, h]
  | a :: b :: d :: r => simp [decodeLoop, h]

/-- **C20** a string of alphabet characters whose length is not a multiple of 4 always reads past the end
(undefined behaviour) instead of being rejected. -/
theorem C20_short_group_ub (e : List UInt8) (h4 : e.length % 4 ≠ 0) (ha : ∀ c ∈ e, isAlpha c = true) :
    base64Decode e .standard = .ub ∧ base64Decode e .url = .ub := by
  have he : e ≠ [] := by rintro rfl; simp at h4
  have := decodeLoop_ub e h4 ha
  constructor <;> simp [base64Decode, standardDecode, he, this]

example : ∃ e : List UInt8, e.length % 4 ≠ 0 ∧ ∀ c ∈ e, isAlpha c = true :=
  ⟨[65, 66, 67, 68, 69], by decide, by decide⟩

/-- **C21** each encoder is injective. -/
theorem C21_encode_injective (a b : List UInt8) (ha : a ≠ []) (hb : b ≠ []) (t : EncodeType)
    (ht : t ∈ plainTypes) (h : base64Encode a t = base64Encode b t) : a = b := by
  obtain ⟨e, e1, e2⟩ := C17_roundtrip a ha t ht
  obtain ⟨f, f1, f2⟩ := C17_roundtrip b hb t ht
  rw [e1, f1] at h
  injection h with h
  subst h
  rw [e2] at f2
  injection f2

/-- **C21** the decoder is not injective: whatever follows the padding is ignored … -/
theorem C21_trailing_ignored (s junk : List UInt8) (hs : s ≠ []) (h3 : s.length % 3 ≠ 0) (url : Bool) :
    ∃ e, base64Encode s (if url then .url else .standard) = .ok e ∧
      base64Decode (e ++ junk) .standard = .ok s := by
  refine ⟨encF url s, ?_, ?_⟩
  · cases url
    · exact encode_eq false hs
    · exact encode_eq true hs
  · show standardDecode _ = _
    have hne : encF url s ++ junk ≠ [] := by
      intro h; exact encF_ne_nil url hs (List.append_eq_nil_iff.mp h).1
    simp only [standardDecode, hne, if_false]
    exact decode_encF url s junk (.inr h3)

/-- **C21** … and so are the spare bits of the last group: every one-byte message has 16 encodings. -/
theorem C21_spare_bits (a : UInt8) (v : Nat) (hv : v < 16) :
    base64Decode [alphabet false (a.toNat / 4), alphabet false (a.toNat % 4 * 16 + v), 61, 61] .standard
      = .ok [a] := by
  have ha := a.toNat_lt
  show standardDecode _ = _
  simp only [standardDecode, reduceCtorEq, if_false, decodeLoop]
  rw [(symb_alpha false _ (by omega)).1, Res.ok_bind, (symb_alpha false _ (by omega)).1, Res.ok_bind]
  simp only [Nat.shiftRight_eq_div_pow]
  rw [byte_or (b := a) (by omega) (by omega)]
  rfl

/-- **C21** url text is accepted by the standard decoder and conversely. -/
theorem C21_alphabets_mixed (s : List UInt8) (hs : s ≠ []) :
    ∃ e f, base64Encode s .url = .ok e ∧ base64Encode s .standard = .ok f ∧
      base64Decode e .standard = .ok s ∧ base64Decode f .url = .ok s :=
  ⟨_, _, encode_eq true hs, encode_eq false hs, standardDecode_encF true hs, standardDecode_encF false hs⟩

/-! ### Radix64 -/

theorem encF_b64Text (s : List UInt8) : encF false s = b64Text s := by
  apply List.ext_getElem?
  intro k
  by_cases hk : k < (encF false s).length
  · rw [encF_getElem false s k hk, b64Text, List.getElem?_map, List.getElem?_range (by rwa [encF_length] at hk)]
    rfl
  · rw [List.getElem?_eq_none (by omega), List.getElem?_eq_none]
    rw [encF_length] at hk
    simp [b64Text]; omega

/-- the checksum text in terms of the encoder -/
theorem crcText_eq (body : List UInt8) : checksumText body = encF false (le32 (crc32 body)) := by
  rw [encF_b64Text, checksumText]
  congr 1
  simp [le32, List.range_succ]

theorem crcText_length (body : List UInt8) : (checksumText body).length = 8 := by
  rw [crcText_eq, encF_length]; simp [le32]

theorem le32_inj {a b : Nat} (ha : a < 2 ^ 32) (hb : b < 2 ^ 32) (h : le32 a = le32 b) : a = b := by
  simp only [le32, List.cons.injEq, and_true] at h
  obtain ⟨h0, h1, h2, h3⟩ := h
  have g0 := congrArg UInt8.toNat h0
  have g1 := congrArg UInt8.toNat h1
  have g2 := congrArg UInt8.toNat h2
  have g3 := congrArg UInt8.toNat h3
  simp only [UInt8.toNat_ofNat'] at g0 g1 g2 g3
  omega

theorem encF_inj {a b : List UInt8} (ha : a ≠ []) (hb : b ≠ []) (h : encF false a = encF false b) : a = b := by
  have h1 := standardDecode_encF false ha
  have h2 := standardDecode_encF false hb
  rw [h, h2] at h1
  injection h1 with h1
  exact h1.symm

theorem crcText_inj {a b : List UInt8} (h : checksumText a = checksumText b) : crc32 a = crc32 b :=
  le32_inj (Crc32.crc32_lt a) (Crc32.crc32_lt b) (encF_inj (by simp [le32]) (by simp [le32]) (by rwa [← crcText_eq, ← crcText_eq]))

theorem calc_body (body : List UInt8) (hb : body ≠ []) (hl : body.length < 2 ^ 32) :
    Crc32.calcHash (some body) (body.length % 2 ^ 32) = .ok (crc32 body) := by
  rw [Nat.mod_eq_of_lt hl]; exact Crc32.calcHash_eq body hb

theorem radix64Decode_split (body h : List UInt8) (hb : body ≠ []) (hl : body.length < 2 ^ 32)
    (hh : h.length = 8) :
    radix64Decode (body ++ h) =
      if checksumText body ≠ h then .throw .runtimeError else decodeWithSeparators body := by
  have hpos : body.length ≠ 0 := by simpa using hb
  have hne : body ++ h ≠ [] := by simp [hb]
  have hlen : ¬ (body ++ h).length ≤ 8 := by simp [hh]; omega
  have hd : (body ++ h).drop ((body ++ h).length - 8) = h := by
    apply List.drop_left'; simp [hh]
  have ht : (body ++ h).take ((body ++ h).length - 8) = body := by
    apply List.take_left'; simp [hh]
  simp only [radix64Decode, hne, hlen, if_false, hd, ht]
  rw [calc_body body hb hl, Res.ok_bind, encode_eq false (by simp [le32]), crcText_eq]
  rfl

/-- **C22** Radix64 round trip for every non-empty input whose MIME text is shorter than 2^32 and has a
non-zero checksum; with a zero checksum the encoder throws. -/
theorem C22_roundtrip (s : List UInt8) (hs : s ≠ []) :
    ∃ body, base64Encode s .mime = .ok body ∧ (body.length < 2 ^ 32 →
      (crc32 body ≠ 0 → ∃ e, base64Encode s .radix64 = .ok e ∧ base64Decode e .radix64 = .ok s) ∧
      (crc32 body = 0 → base64Encode s .radix64 = .throw .runtimeError)) := by
  refine ⟨_, encodeSep_eq 76 (by decide) hs, ?_⟩
  intro hl
  have hb : splitLoop endline 76 (by decide) (encF false s) ≠ [] := by
    intro e
    have := filter_splitLoop 76 (by decide) _ (encF_noCRLF false s)
    rw [e] at this
    exact encF_ne_nil false hs (by simpa using this.symm)
  have hd := decodeSep_encode 76 (by decide) hs
  have hE : radix64Encode s = (if crc32 (splitLoop endline 76 (by decide) (encF false s)) = 0 then
      .throw .runtimeError else
      .ok (splitLoop endline 76 (by decide) (encF false s) ++
        checksumText (splitLoop endline 76 (by decide) (encF false s)))) := by
    simp only [radix64Encode, hs, if_false]
    rw [show encodeMime s = .ok (splitLoop endline 76 (by decide) (encF false s)) from
      encodeSep_eq 76 (by decide) hs, Res.ok_bind, calc_body _ hb hl, Res.ok_bind]
    split
    · rfl
    · rw [encode_eq false (by simp [le32]), crcText_eq]; rfl
  constructor
  · intro hc
    refine ⟨_, by show radix64Encode s = _; rw [hE, if_neg hc], ?_⟩
    show radix64Decode _ = _
    rw [radix64Decode_split _ _ hb hl (crcText_length _), if_neg (by simp)]
    exact hd
  · intro hc
    show radix64Encode s = _
    rw [hE, if_pos hc]

/-- **C22** The armored text is the MIME text followed by its CRC-32: four bytes, least significant first, in
standard Base64. -/
theorem C22_format (s e : List UInt8) (hs : s ≠ []) (he : base64Encode s .radix64 = .ok e) :
    ∃ body, base64Encode s .mime = .ok body ∧ (body.length < 2 ^ 32 → e = body ++ checksumText body) := by
  refine ⟨_, encodeSep_eq 76 (by decide) hs, fun hl => ?_⟩
  have hb : splitLoop endline 76 (by decide) (encF false s) ≠ [] := by
    intro e
    have := filter_splitLoop 76 (by decide) _ (encF_noCRLF false s)
    rw [e] at this
    exact encF_ne_nil false hs (by simpa using this.symm)
  have he' : radix64Encode s = .ok e := he
  simp only [radix64Encode, hs, if_false] at he'
  rw [show encodeMime s = .ok (splitLoop endline 76 (by decide) (encF false s)) from
    encodeSep_eq 76 (by decide) hs, Res.ok_bind, calc_body _ hb hl, Res.ok_bind] at he'
  split at he'
  · cases he'
  · rw [encode_eq false (by simp [le32])] at he'
    rw [crcText_eq]
    exact (Res.ok.inj he').symm

theorem covered_eq {body : List UInt8} (h : body.length < 2 ^ 32) : covered body = body := by
  rw [covered, Nat.mod_eq_of_lt h, List.take_length]

theorem calc_zero {body : List UInt8} (h : body.length % 2 ^ 32 = 0) :
    Crc32.calcHash (some body) (body.length % 2 ^ 32) = .throw .invalidArgument := by
  rw [h]; rfl

theorem calc_covered {body : List UInt8} (h : body.length % 2 ^ 32 ≠ 0) :
    Crc32.calcHash (some body) (body.length % 2 ^ 32) = .ok (crc32 (covered body)) := by
  have hle : body.length % 2 ^ 32 ≤ body.length := Nat.mod_le _ _
  have hl : (covered body).length = body.length % 2 ^ 32 := by rw [covered, List.length_take]; omega
  have := Crc32.calcHash_eq (covered body) (by intro e; rw [e] at hl; exact h hl.symm)
  rw [hl] at this
  rw [← this]
  unfold Crc32.calcHash covered
  simp only [h, if_false, List.length_take, List.take_take, Nat.min_self]
  rw [if_neg (by omega), if_neg (by omega)]

theorem radix64Decode_gen (body h : List UInt8) (hb : body.length % 2 ^ 32 ≠ 0) (hh : h.length = 8) :
    radix64Decode (body ++ h) =
      if checksumText (covered body) ≠ h then .throw .runtimeError else decodeWithSeparators body := by
  have hpos : body.length ≠ 0 := by intro e; rw [e] at hb; exact hb rfl
  have hbn : body ≠ [] := by rintro rfl; exact hpos rfl
  have hne : body ++ h ≠ [] := by simp [hbn]
  have hlen : ¬ (body ++ h).length ≤ 8 := by simp [hh]; omega
  have hd : (body ++ h).drop ((body ++ h).length - 8) = h := by
    apply List.drop_left'; simp [hh]
  have ht : (body ++ h).take ((body ++ h).length - 8) = body := by
    apply List.take_left'; simp [hh]
  simp only [radix64Decode, hne, hlen, if_false, hd, ht]
  rw [calc_covered hb, Res.ok_bind, encode_eq false (by simp [le32]), crcText_eq]
  rfl

theorem radix64Encode_gen {s : List UInt8} (hs : s ≠ []) :
    radix64Encode s = (if (splitLoop endline 76 (by decide) (encF false s)).length % 2 ^ 32 = 0 then .throw .invalidArgument
      else if crc32 (covered (splitLoop endline 76 (by decide) (encF false s))) = 0 then .throw .runtimeError else
      .ok (splitLoop endline 76 (by decide) (encF false s) ++
        checksumText (covered (splitLoop endline 76 (by decide) (encF false s))))) := by
  simp only [radix64Encode, hs, if_false]
  rw [show encodeMime s = .ok (splitLoop endline 76 (by decide) (encF false s)) from
    encodeSep_eq 76 (by decide) hs, Res.ok_bind]
  by_cases h0 : (splitLoop endline 76 (by decide) (encF false s)).length % 2 ^ 32 = 0
  · rw [calc_zero h0, if_pos h0]; rfl
  · rw [calc_covered h0, if_neg h0, Res.ok_bind]
    split
    · rfl
    · rw [encode_eq false (by simp [le32]), crcText_eq]; rfl

/-- **C22** Texts of any length: the length of the MIME text is passed to the checksum in 32 bits.  If that makes it 0 the
encoder throws `invalid_argument`; if the checksum of the part so covered is 0 it throws `runtime_error`; otherwise it returns
the MIME text followed by that checksum. -/
theorem C22_any_length (s : List UInt8) (hs : s ≠ []) :
    ∃ body, base64Encode s .mime = .ok body ∧
      (body.length % 2 ^ 32 = 0 → base64Encode s .radix64 = .throw .invalidArgument) ∧
      (body.length % 2 ^ 32 ≠ 0 → crc32 (covered body) = 0 → base64Encode s .radix64 = .throw .runtimeError) ∧
      (body.length % 2 ^ 32 ≠ 0 → crc32 (covered body) ≠ 0 →
        base64Encode s .radix64 = .ok (body ++ checksumText (covered body))) := by
  refine ⟨_, encodeSep_eq 76 (by decide) hs, fun h => ?_, fun h h' => ?_, fun h h' => ?_⟩ <;> show radix64Encode s = _ <;>
    rw [radix64Encode_gen hs]
  · rw [if_pos h]
  · rw [if_neg h, if_pos h']
  · rw [if_neg h, if_neg h']

/-- **C22** The round trip, without any condition on the length: what the encoder returns decodes to the input. -/
theorem C22_roundtrip_any_length (s e : List UInt8) (he : base64Encode s .radix64 = .ok e) : base64Decode e .radix64 = .ok s := by
  by_cases hs : s = []
  · subst hs
    have : e = [] := (Res.ok.inj he).symm
    subst this; rfl
  · have he' : radix64Encode s = .ok e := he
    rw [radix64Encode_gen hs] at he'
    by_cases h0 : (splitLoop endline 76 (by decide) (encF false s)).length % 2 ^ 32 = 0
    · rw [if_pos h0] at he'; cases he'
    · rw [if_neg h0] at he'
      by_cases h1 : crc32 (covered (splitLoop endline 76 (by decide) (encF false s))) = 0
      · rw [if_pos h1] at he'; cases he'
      · rw [if_neg h1] at he'
        rw [← Res.ok.inj he']
        show radix64Decode _ = _
        rw [radix64Decode_gen _ _ h0 (crcText_length _), if_neg (by simp)]
        exact decodeSep_encode 76 (by decide) hs

/-- **C22** the empty string maps to itself. -/
theorem C22_empty : base64Encode [] .radix64 = .ok [] ∧ base64Decode [] .radix64 = .ok [] := ⟨rfl, rfl⟩

/-- **C22** the exceptional case is reachable: a 9-byte message the encoder refuses. -/
theorem C22_zero_crc_exists :
    base64Encode [85, 100, 19, 80, 244, 207, 65, 20, 81] .radix64 = .throw .runtimeError := by
  have hs : ([85, 100, 19, 80, 244, 207, 65, 20, 81] : List UInt8) ≠ [] := by simp
  have e : splitLoop endline 76 (by decide) (encF false [85, 100, 19, 80, 244, 207, 65, 20, 81]) =
      [86, 87, 81, 84, 85, 80, 84, 80, 81, 82, 82, 82] := by
    rw [splitLoop, dif_neg (by simp [encF])]; decide
  obtain ⟨body, hb, hr⟩ := C22_roundtrip _ hs
  rw [show base64Encode [85, 100, 19, 80, 244, 207, 65, 20, 81] .mime =
    .ok (splitLoop endline 76 (by decide) (encF false [85, 100, 19, 80, 244, 207, 65, 20, 81])) from
    encodeSep_eq 76 (by decide) hs, e] at hb
  injection hb with hb
  subst hb
  exact (hr (by norm_num)).2 (by decide +kernel)

/-- **C22** the hypotheses of the round trip are met by an ordinary message. -/
example : ∃ e, base64Encode [1, 2, 3] .radix64 = .ok e ∧ base64Decode e .radix64 = .ok [1, 2, 3] := by
  have hs : ([1, 2, 3] : List UInt8) ≠ [] := by simp
  have e : splitLoop endline 76 (by decide) (encF false [1, 2, 3]) = [65, 81, 73, 68] := by
    rw [splitLoop, dif_neg (by simp [encF])]; decide
  obtain ⟨body, hb, hr⟩ := C22_roundtrip _ hs
  rw [show base64Encode [1, 2, 3] .mime = .ok (splitLoop endline 76 (by decide) (encF false [1, 2, 3])) from
    encodeSep_eq 76 (by decide) hs, e] at hb
  injection hb with hb
  subst hb
  exact (hr (by norm_num)).1 (by decide +kernel)

/-- **C23** Whatever the Radix64 decoder accepts is a body followed by the base64 text of its own CRC-32,
and the result is the line-tolerant decoding of the body. -/
theorem C23_accepted (e d : List UInt8) (he : e ≠ []) (hl : e.length < 2 ^ 32)
    (h : base64Decode e .radix64 = .ok d) :
    ∃ body, e = body ++ checksumText body ∧ body ≠ [] ∧ base64Decode body .mime = .ok d := by
  have hlen : ¬ e.length ≤ 8 := by
    intro hle
    have : base64Decode e .radix64 = .throw .invalidArgument := by
      simp [base64Decode, radix64Decode, he, hle]
    rw [this] at h; simp at h
  have hsplit : e = e.take (e.length - 8) ++ e.drop (e.length - 8) := (List.take_append_drop _ _).symm
  have hb : e.take (e.length - 8) ≠ [] := by
    intro hh
    have := congrArg List.length hh
    simp at this; omega
  have h8 : (e.drop (e.length - 8)).length = 8 := by simp; omega
  have hr := radix64Decode_split (e.take (e.length - 8)) (e.drop (e.length - 8)) hb
    (by simp; omega) h8
  rw [← hsplit] at hr
  have h' : radix64Decode e = .ok d := h
  rw [hr] at h'
  by_cases hc : checksumText (e.take (e.length - 8)) ≠ e.drop (e.length - 8)
  · rw [if_pos hc] at h'; simp at h'
  · rw [if_neg hc] at h'
    rw [not_not] at hc
    exact ⟨_, by rw [hc]; exact hsplit, hb, h'⟩

/-- **C23** a burst of up to four changed consecutive characters of the body of a valid text is detected. -/
theorem C23_body_burst (p w w' q : List UInt8) (hl : w.length = w'.length) (h4 : w.length ≤ 4) (hne : w ≠ w')
    (hlen : (p ++ w ++ q).length < 2 ^ 32) :
    base64Decode (p ++ w' ++ q ++ checksumText (p ++ w ++ q)) .radix64 = .throw .runtimeError := by
  have hw : w' ≠ [] := by
    intro h; subst h; simp at hl; exact hne hl
  have hb : p ++ w' ++ q ≠ [] := by simp [hw]
  show radix64Decode _ = _
  rw [radix64Decode_split _ _ hb (by simp at hlen ⊢; omega) (crcText_length _), if_pos]
  intro h
  exact Crc32.crc32_window p w w' q hl h4 hne (crcText_inj h).symm

/-- **C23** any change of the checksum text is detected. -/
theorem C23_checksum_change (body h : List UInt8) (hb : body ≠ []) (hlen : body.length < 2 ^ 32)
    (h8 : h.length = 8) (hne : h ≠ checksumText body) :
    base64Decode (body ++ h) .radix64 = .throw .runtimeError := by
  show radix64Decode _ = _
  rw [radix64Decode_split _ _ hb hlen h8, if_pos (Ne.symm hne)]

/-- **C23** changing any single character of the armored text of any message makes decoding throw. -/
theorem C23_single_char (s e : List UInt8) (he : base64Encode s .radix64 = .ok e) (hlen : e.length < 2 ^ 32)
    (i : Nat) (hi : i < e.length) (c : UInt8) (hc : c ≠ e[i]) :
    base64Decode (e.set i c) .radix64 = .throw .runtimeError := by
  have hs : s ≠ [] := by
    rintro rfl
    have : e = [] := by
      have h := C22_empty.1; rw [he] at h; injection h
    subst this; simp at hi
  -- the text is body ++ checksumText body
  obtain ⟨body, hb, hbn, heq⟩ : ∃ body, e = body ++ checksumText body ∧ body ≠ [] ∧ True := by
    obtain ⟨body, hm, hr⟩ := C22_roundtrip s hs
    have hbn : body ≠ [] := by
      intro h; subst h
      have hm' : encodeWithSeparator s endline 76 = .ok [] := hm
      rw [encodeSep_eq 76 (by decide) hs] at hm'
      injection hm' with hm'
      have := filter_splitLoop 76 (by decide) _ (encF_noCRLF false s)
      rw [hm'] at this
      exact encF_ne_nil false hs (by simpa using this.symm)
    have he' : radix64Encode s = .ok e := he
    simp only [radix64Encode, hs, if_false] at he'
    rw [show encodeMime s = .ok body from hm, Res.ok_bind] at he'
    have hsz : body.length < 2 ^ 32 := by
      cases hcalc : Crc32.calcHash (some body) (body.length % 2 ^ 32) with
      | ok x =>
        rw [hcalc, Res.ok_bind] at he'
        split at he'
        · simp at he'
        · rw [encode_eq false (by simp [le32])] at he'
          simp only [Res.ok_bind, Res.ok.injEq] at he'
          rw [← he'] at hlen
          simp only [List.length_append] at hlen
          omega
      | throw x => rw [hcalc] at he'; simp at he'
      | ub => rw [hcalc] at he'; simp at he'
    rw [calc_body body hbn hsz, Res.ok_bind] at he'
    split at he'
    · simp at he'
    · rw [encode_eq false (by simp [le32])] at he'
      simp only [Res.ok_bind, Res.ok.injEq] at he'
      exact ⟨body, by rw [crcText_eq]; exact he'.symm, hbn, trivial⟩
  have hl8 := crcText_length body
  have hbl : body.length < 2 ^ 32 := by rw [hb] at hlen; simp at hlen; omega
  by_cases hib : i < body.length
  · have e1 : body = body.take i ++ [body[i]] ++ body.drop (i + 1) := by simp
    have e2 : e.set i c = body.take i ++ [c] ++ body.drop (i + 1) ++ checksumText body := by
      rw [hb, List.set_append_left _ _ hib, List.set_eq_take_append_cons_drop, if_pos hib]; simp
    have hci : [body[i]] ≠ [c] := by
      intro h
      injection h with h
      apply hc
      rw [← h]
      have : e[i]? = some body[i] := by rw [hb, List.getElem?_append_left hib]; simp [hib]
      rw [List.getElem?_eq_getElem hi] at this
      injection this with this
      exact this.symm
    rw [e2]
    have := C23_body_burst (body.take i) [body[i]] [c] (body.drop (i + 1)) rfl (by simp) hci
      (by rw [← e1]; exact hbl)
    rwa [← e1] at this
  · have hge : body.length ≤ i := by omega
    have e2 : e.set i c = body ++ (checksumText body).set (i - body.length) c := by
      rw [hb, List.set_append_right _ _ hge]
    rw [e2]
    apply C23_checksum_change body _ hbn hbl (by simp [hl8])
    intro h
    apply hc
    have hi8 : i - body.length < (checksumText body).length := by
      rw [hb] at hi; simp at hi; omega
    have h1 : ((checksumText body).set (i - body.length) c)[i - body.length]? = some c := by
      simp [hi8]
    rw [h] at h1
    have h2 : e[i]? = some c := by rw [hb, List.getElem?_append_right hge]; exact h1
    rw [List.getElem?_eq_getElem hi] at h2
    injection h2 with h2
    exact h2.symm

/-- **C23** Beyond 2³² characters there is no such protection: only the first `length mod 2³²` characters of the body are
covered, and any change of the others that keeps the length is accepted by the checksum test — the result is the decoding of the
changed body. -/
theorem C23_long_unprotected (body body' : List UInt8) (hl : body'.length = body.length) (h0 : body.length % 2 ^ 32 ≠ 0)
    (heq : ∀ i, i < body.length % 2 ^ 32 → body'[i]? = body[i]?) :
    base64Decode (body' ++ checksumText (covered body)) .radix64 = base64Decode body' .mime := by
  have hc : covered body' = covered body := by
    unfold covered
    rw [hl]
    apply List.ext_getElem?
    intro i
    rw [List.getElem?_take, List.getElem?_take]
    by_cases hi : i < body.length % 2 ^ 32
    · rw [if_pos hi, if_pos hi]; exact heq i hi
    · rw [if_neg hi, if_neg hi]
  show radix64Decode _ = _
  rw [radix64Decode_gen _ _ (by rw [hl]; exact h0) (crcText_length _), hc, if_neg (by simp)]
  rfl

/-- a case of that kind: 2³² + 8 letters `A`, the last replaced by `B` -/
example : base64Decode ((List.replicate (2 ^ 32 + 7) 65 ++ [66]) ++ checksumText (covered (List.replicate (2 ^ 32 + 8) 65))) .radix64 =
    base64Decode (List.replicate (2 ^ 32 + 7) 65 ++ [66]) .mime := by
  apply C23_long_unprotected
  · rw [List.length_append, List.length_replicate, List.length_replicate]; rfl
  · rw [List.length_replicate]; norm_num
  · intro i hi
    rw [List.length_replicate] at hi
    have hi : i < 8 := by norm_num at hi; exact hi
    rw [List.getElem?_append_left (by rw [List.length_replicate]; omega), List.getElem?_replicate, List.getElem?_replicate,
      if_pos (by omega), if_pos (by omega)]

end Verif.Props
