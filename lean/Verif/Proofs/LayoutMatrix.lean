import Verif.Model.LayoutMatrix
import Verif.Proofs.Rle
import Verif.Proofs.Base64
import Verif.Props.Base64

namespace Verif.LayoutMatrix
open ByteHandler BitMatrix Base64 Spec

theorem strBegin_length : strBegin.length = 32 := by decide
theorem strEnd_length : strEnd.length = 30 := by decide
theorem parametersLen_eq : parametersLen = 62 := by decide
theorem sp_length : sectionParameters.length = 14 := by decide
theorem ss_length : sectionSize.length = 8 := by decide
theorem se_length : sectionEncodeType.length = 15 := by decide

theorem substr_ok {s : List UInt8} {pos n : Nat} (h : pos ≤ s.length) :
    substr s pos n = .ok ((s.drop pos).take n) := by
  have : ¬ s.length < pos := by omega
  simp [substr, this]

theorem substrFrom_ok {s : List UInt8} {pos : Nat} (h : pos ≤ s.length) :
    substrFrom s pos = .ok (s.drop pos) := by
  have : ¬ s.length < pos := by omega
  simp [substrFrom, this]

theorem contains_prefix (a b : List UInt8) : contains (a ++ b) a = true := by
  simp only [contains, List.any_eq_true, List.mem_range]
  exact ⟨0, by omega, by simp⟩

/-! ### sizes -/

theorem szLoop_zero (p : Platform) (rest : List UInt8) : ∀ n offs sz, offs + n ≤ 8 →
    szLoop p (List.replicate n 0 ++ rest) offs sz = szLoop p rest (offs + n) sz := by
  intro n
  induction n with
  | zero => intro offs sz _; rfl
  | succ n ih =>
    intro offs sz h
    have hs : shl64 p (charToSize p 0) (offs * 8) = .ok 0 := by
      have : offs * 8 < 64 := by omega
      simp [shl64, this, charToSize]
    rw [List.replicate_succ, List.cons_append, szLoop, hs, Res.ok_bind, Nat.or_zero,
      ih (offs + 1) sz (by omega)]
    congr 1; omega

theorem shl64_ub {p : Platform} (hp : p.maskedShift = false) (w s : Nat) (h : 64 ≤ s) :
    shl64 p w s = .ub := by
  have : ¬ s < 64 := by omega
  simp [shl64, this, hp]

theorem shl64_masked {p : Platform} (hp : p.maskedShift = true) (w k : Nat) (h : k < 8) :
    shl64 p w ((8 + k) * 8) = .ok (w * 2 ^ (8 * k) % 2 ^ 64) := by
  have h1 : ¬ (8 + k) * 8 < 64 := by omega
  have h2 : (8 + k) * 8 % 64 = 8 * k := by omega
  simp [shl64, h1, hp, h2]

theorem szLoop_plain {p : Platform} (hp : p.maskedShift = true) : ∀ (cs : List UInt8) (k sz : Nat),
    k + cs.length ≤ 8 → sz < 2 ^ (8 * k) → (∀ c ∈ cs, charToSize p c = c.toNat) →
    szLoop p cs (8 + k) sz = .ok (sz + leVal cs * 2 ^ (8 * k)) := by
  intro cs
  induction cs with
  | nil => intro k sz _ _ _; simp [szLoop, leVal]
  | cons c cs ih =>
    intro k sz hk hs hc
    simp only [List.length_cons] at hk
    have hcl := c.toNat_lt
    have hlt : c.toNat * 2 ^ (8 * k) < 2 ^ 64 := by
      have h1 : c.toNat * 2 ^ (8 * k) < 2 ^ 8 * 2 ^ (8 * k) :=
        Nat.mul_lt_mul_of_pos_right (by omega) (Nat.two_pow_pos _)
      rw [← Nat.pow_add] at h1
      exact Nat.lt_of_lt_of_le h1 (Nat.pow_le_pow_right (by omega) (by omega))
    rw [szLoop, shl64_masked hp _ _ (by omega), Res.ok_bind, hc c (by simp), Nat.mod_eq_of_lt hlt]
    have hor : sz ||| c.toNat * 2 ^ (8 * k) = sz + c.toNat * 2 ^ (8 * k) := by
      rw [Nat.or_comm, ← Nat.shiftLeft_eq, ← Nat.shiftLeft_add_eq_or_of_lt hs, Nat.add_comm]
    have hpow : 2 ^ (8 * (k + 1)) = 256 * 2 ^ (8 * k) := by
      rw [show 8 * (k + 1) = 8 + 8 * k by omega, Nat.pow_add]
    rw [show 8 + k + 1 = 8 + (k + 1) by omega, hor, ih (k + 1) _ (by omega) (by
      rw [hpow]
      have := Nat.mul_le_mul_right (2 ^ (8 * k)) (show c.toNat ≤ 255 by omega)
      omega) (fun x hx => hc x (by simp [hx]))]
    simp only [leVal]
    rw [hpow]; congr 1; ring

theorem szLoop_ok {p : Platform} (hp : p.maskedShift = true) : ∀ (cs : List UInt8) (k sz : Nat),
    k + cs.length ≤ 8 → sz < 2 ^ 64 → ∃ r, szLoop p cs (8 + k) sz = .ok r ∧ r < 2 ^ 64 ∧
      (sz.testBit 63 = true ∨ (p.charSigned = true ∧ ∃ c ∈ cs, 128 ≤ c.toNat) → r.testBit 63 = true) := by
  intro cs
  induction cs with
  | nil => intro k sz _ h; exact ⟨sz, rfl, h, by rintro (h | ⟨_, c, hc, _⟩); exact h; simp at hc⟩
  | cons c cs ih =>
    intro k sz hk hs
    simp only [List.length_cons] at hk
    rw [szLoop, shl64_masked hp _ _ (by omega), Res.ok_bind]
    have hw : charToSize p c * 2 ^ (8 * k) % 2 ^ 64 < 2 ^ 64 := Nat.mod_lt _ (Nat.two_pow_pos _)
    obtain ⟨r, e, hr, ht⟩ := ih (k + 1) (sz ||| charToSize p c * 2 ^ (8 * k) % 2 ^ 64) (by omega)
      (Nat.or_lt_two_pow hs hw)
    refine ⟨r, by rw [show 8 + k + 1 = 8 + (k + 1) by omega]; exact e, hr, ?_⟩
    rintro (h | ⟨hsg, x, hx, hx128⟩)
    · exact ht (.inl (by rw [Nat.testBit_or, h, Bool.true_or]))
    · rcases List.mem_cons.mp hx with rfl | hx
      · refine ht (.inl ?_)
        rw [Nat.testBit_or]
        have hxl := x.toNat_lt
        have hv : charToSize p x = 2 ^ 64 - 256 + x.toNat := by simp [charToSize, hsg, hx128]
        have hb : (charToSize p x * 2 ^ (8 * k) % 2 ^ 64).testBit 63 = true := by
          rw [hv]
          have hq : (256 - x.toNat) * 2 ^ (8 * k) ≤ 2 ^ 63 := by
            calc (256 - x.toNat) * 2 ^ (8 * k) ≤ 2 ^ 7 * 2 ^ (8 * k) :=
                  Nat.mul_le_mul_right _ (by omega)
              _ = 2 ^ (7 + 8 * k) := by rw [Nat.pow_add]
              _ ≤ 2 ^ 63 := Nat.pow_le_pow_right (by omega) (by omega)
          have hq0 : 0 < (256 - x.toNat) * 2 ^ (8 * k) := Nat.mul_pos (by omega) (Nat.two_pow_pos _)
          have hval : (2 ^ 64 - 256 + x.toNat) * 2 ^ (8 * k) =
              (2 ^ 64 - (256 - x.toNat) * 2 ^ (8 * k)) + 2 ^ 64 * (2 ^ (8 * k) - 1) := by
            have e1 : (2 ^ 64 - 256 + x.toNat) * 2 ^ (8 * k) + (256 - x.toNat) * 2 ^ (8 * k) =
                2 ^ 64 * 2 ^ (8 * k) := by
              rw [← Nat.add_mul]; congr 1; omega
            have e2 : 2 ^ 64 * 2 ^ (8 * k) = 2 ^ 64 * (2 ^ (8 * k) - 1) + 2 ^ 64 := by
              rw [Nat.mul_sub_one]
              have := Nat.mul_le_mul_left (2 ^ 64) (Nat.two_pow_pos (8 * k))
              omega
            omega
          rw [hval, Nat.add_mul_mod_self_left, Nat.mod_eq_of_lt (by omega),
            Nat.testBit_eq_decide_div_mod_eq]
          have : (2 ^ 64 - (256 - x.toNat) * 2 ^ (8 * k)) / 2 ^ 63 = 1 := by omega
          rw [this]; rfl
        rw [hb, Bool.or_true]
      · exact ht (.inr ⟨hsg, x, hx, hx128⟩)

theorem sizeBytes_length (n : Nat) : (List.replicate 8 0 ++ le64 n).length = 16 := by
  simp [le64_length]

theorem decodeSz_strict {p : Platform} (hp : p.maskedShift = false) (n : Nat) :
    decodeSz p (List.replicate 8 0 ++ le64 n) = .ub := by
  simp only [decodeSz, sizeBytes_length, ne_eq, not_true_eq_false, if_false]
  rw [szLoop_zero p _ 8 0 0 (by omega)]
  have : le64 n = UInt8.ofNat n :: (le64 n).tail := by
    simp [le64, List.range_succ]
  rw [this, szLoop, shl64_ub hp _ _ (by omega)]
  rfl

theorem decodeSz_plain {p : Platform} (hp : p.maskedShift = true) (r c : Nat) (hr : r < 2 ^ 32)
    (hc : c < 2 ^ 32) (hb : ∀ x ∈ le64 (c ||| r * 2 ^ 32), charToSize p x = x.toNat) :
    decodeSz p (List.replicate 8 0 ++ le64 (c ||| r * 2 ^ 32)) =
      .ok (UInt32.ofNat c, UInt32.ofNat r) := by
  have hor : c ||| r * 2 ^ 32 = c + r * 2 ^ 32 := by
    rw [Nat.or_comm, ← Nat.shiftLeft_eq, ← Nat.shiftLeft_add_eq_or_of_lt hc, Nat.add_comm]
  simp only [decodeSz, sizeBytes_length, ne_eq, not_true_eq_false, if_false]
  rw [szLoop_zero p _ 8 0 0 (by omega)]
  have := szLoop_plain hp (le64 (c ||| r * 2 ^ 32)) 0 0 (by simp [le64_length]) (by simp) hb
  rw [show 0 + 8 = 8 + 0 from rfl, this, Res.ok_bind, leVal_le64 _ (by rw [hor]; omega), hor]
  have e1 : UInt32.ofNat (0 + (c + r * 2 ^ 32) * 2 ^ (8 * 0)) = UInt32.ofNat c := by
    apply UInt32.toNat_inj.mp
    rw [UInt32.toNat_ofNat', UInt32.toNat_ofNat']; omega
  have e2 : (0 + (c + r * 2 ^ 32) * 2 ^ (8 * 0)) / 2 ^ 32 = r := by omega
  rw [e1, e2]

theorem decodeSz_signed {p : Platform} (hp : p.maskedShift = true) (hs : p.charSigned = true) (n : Nat)
    (hb : ∃ x ∈ le64 n, 128 ≤ x.toNat) :
    ∃ c r : UInt32, decodeSz p (List.replicate 8 0 ++ le64 n) = .ok (c, r) ∧ 2 ^ 31 ≤ r.toNat := by
  simp only [decodeSz, sizeBytes_length, ne_eq, not_true_eq_false, if_false]
  rw [szLoop_zero p _ 8 0 0 (by omega)]
  obtain ⟨r, e, hr, ht⟩ := szLoop_ok hp (le64 n) 0 0 (by simp [le64_length]) (by norm_num)
  rw [show 0 + 8 = 8 + 0 from rfl, e, Res.ok_bind]
  refine ⟨_, _, rfl, ?_⟩
  have h63 := ht (.inr ⟨hs, hb⟩)
  rw [Nat.testBit_eq_decide_div_mod_eq, decide_eq_true_eq] at h63
  rw [UInt32.toNat_ofNat']
  omega

/-! ### the framing of a hash -/

/-- `DecodeHash` after the frame has been taken apart. -/
def decodeParts (p : Platform) (al : Alloc) (payload szText : List UInt8) (c : UInt8) : Res BitMatrix := do
  let sz ← base64Decode szText .standard
  let (colCnt, rowCnt) ← decodeSz p sz
  if c.toNat.testBit 1 then do
    let code ← base64Decode payload .standard
    Rle.decodeMatrix al code rowCnt colCnt
  else do
    let m ← BitMatrix.fromString al payload rowCnt.toNat colCnt.toNat
    .ok (moveNewB m).1

/-- the text that is Radix64-armored inside a hash -/
def inner (payload szText : List UInt8) (c : UInt8) : List UInt8 :=
  payload ++ sectionParameters ++ sectionSize ++ szText ++ sectionEncodeType ++ [c]

theorem subSz_le {a b : Nat} (h : b ≤ a) : subSz a b = a - b := by simp [subSz, h]

/-- the beginning of `DecodeHash`: prefix, suffix, Radix64 -/
theorem decodeHash_frame (p : Platform) (al : Alloc) (R : List UInt8) :
    decodeHash p al (strBegin ++ R ++ strEnd) = (do
      let decoded ← base64Decode R .radix64
      let params ← substrFrom decoded (subSz decoded.length parametersLen)
      if contains params sectionParameters = false then .throw .invalidArgument
      else
      let params ← substrFrom params sectionParameters.length
      let s ← substr params 0 sectionSize.length
      if s ≠ sectionSize then .throw .invalidArgument
      else
      let params ← substrFrom params sectionSize.length
      let szText ← substr params 0 24
      let sz ← base64Decode szText .standard
      let (colCnt, rowCnt) ← decodeSz p sz
      let params ← substrFrom params 24
      let t ← substr params 0 sectionEncodeType.length
      if t ≠ sectionEncodeType then .throw .invalidArgument
      else
      let params ← substrFrom params sectionEncodeType.length
      let c ← Res.idx params 0
      let (isRle, _isBase64) ← decodeEncodings c
      let payload ← substr decoded 0 (subSz decoded.length parametersLen)
      if isRle then do
        let code ← base64Decode payload .standard
        Rle.decodeMatrix al code rowCnt colCnt
      else do
        let m ← BitMatrix.fromString al payload rowCnt.toNat colCnt.toNat
        .ok (moveNewB m).1) := by
  have hl : (strBegin ++ R ++ strEnd).length = 62 + R.length := by
    simp [strBegin_length, strEnd_length]; omega
  have hne : strBegin ++ R ++ strEnd ≠ [] := by
    intro h; rw [h] at hl; simp at hl; omega
  unfold decodeHash
  rw [if_neg hne, substr_ok (by omega), Res.ok_bind]
  have e1 : ((strBegin ++ R ++ strEnd).drop 0).take strBegin.length = strBegin := by
    rw [List.drop_zero, List.append_assoc, List.take_left']; rfl
  rw [e1, if_neg (by simp), subSz_le (by rw [hl, strEnd_length]; omega)]
  rw [substr_ok (by omega), Res.ok_bind]
  have e2 : ((strBegin ++ R ++ strEnd).drop ((strBegin ++ R ++ strEnd).length - strEnd.length)).take
      strEnd.length = strEnd := by
    rw [List.drop_left' (by simp; omega), List.take_of_length_le (le_refl _)]
  have hs1 : subSz (strBegin ++ R ++ strEnd).length strBegin.length =
      (strBegin ++ R ++ strEnd).length - strBegin.length := subSz_le (by rw [hl, strBegin_length]; omega)
  rw [e2, if_neg (by simp), hs1,
    subSz_le (by rw [hl, strBegin_length, strEnd_length]; omega), substr_ok (by rw [hl, strBegin_length]; omega), Res.ok_bind]
  have e3 : ((strBegin ++ R ++ strEnd).drop strBegin.length).take
      ((strBegin ++ R ++ strEnd).length - strBegin.length - strEnd.length) = R := by
    rw [List.append_assoc, List.drop_left' rfl]
    apply List.take_left'
    simp [strBegin_length, strEnd_length]
  rw [e3]

theorem decodeEncodings_eq (c : UInt8) :
    decodeEncodings c = .ok (c.toNat.testBit 1, c.toNat.testBit 1) := by
  simp only [decodeEncodings, rleBitPos]
  rw [getBit_eq _ _ (by omega)]; rfl

theorem decodeHash_parts (p : Platform) (al : Alloc) {R payload szText : List UInt8} {c : UInt8}
    (hsz : szText.length = 24) (hR : base64Decode R .radix64 = .ok (inner payload szText c)) :
    decodeHash p al (strBegin ++ R ++ strEnd) = decodeParts p al payload szText c := by
  rw [decodeHash_frame, hR, Res.ok_bind]
  have hl : (inner payload szText c).length = payload.length + 62 := by
    simp [inner, sp_length, ss_length, se_length, hsz]
  have hsub : subSz (inner payload szText c).length parametersLen = payload.length := by
    rw [subSz_le (by rw [hl, parametersLen_eq]; omega), hl, parametersLen_eq]; omega
  rw [hsub, substrFrom_ok (by omega), Res.ok_bind]
  have e1 : (inner payload szText c).drop payload.length =
      sectionParameters ++ (sectionSize ++ (szText ++ (sectionEncodeType ++ [c]))) := by
    simp [inner, List.append_assoc]
  rw [e1, contains_prefix, if_neg (by simp), substrFrom_ok (by simp), Res.ok_bind,
    List.drop_left' rfl, substr_ok (by omega), Res.ok_bind, List.drop_zero, List.take_left' rfl,
    if_neg (by simp), substrFrom_ok (by simp), Res.ok_bind, List.drop_left' rfl, substr_ok (by omega),
    Res.ok_bind, List.drop_zero, List.take_left' hsz]
  simp only [decodeParts]
  congr 1
  funext sz
  congr 1
  funext cr
  rw [substrFrom_ok (by simp [hsz]), Res.ok_bind, List.drop_left' hsz, substr_ok (by omega), Res.ok_bind,
    List.drop_zero, List.take_left' rfl, if_neg (by simp), substrFrom_ok (by simp), Res.ok_bind,
    List.drop_left' rfl, Res.idx_of_lt _ _ (by simp), Res.ok_bind, decodeEncodings_eq, Res.ok_bind,
    substr_ok (by omega), Res.ok_bind]
  have e2 : ((inner payload szText c).drop 0).take payload.length = payload := by
    simp [inner, List.append_assoc]
  rw [e2]
  simp

/-! ### encoding -/

theorem splitLoop_length (v : List UInt8) (hv : v ≠ []) :
    (splitLoop endline 76 (by decide) v).length ≤ v.length + 2 * (v.length / 76) := by
  obtain ⟨full, last, h1, h2, h3, h4, h5⟩ := splitLoop_spec 76 (by decide) v hv
  rw [h5]
  have a : ∀ (f : List (List UInt8)), (∀ l ∈ f, l.length = 76) →
      f.flatten.length = 76 * f.length ∧ ((f.map (· ++ endline)).flatten).length = 78 * f.length := by
    intro f
    induction f with
    | nil => intro _; simp
    | cons x xs ih =>
      intro h
      obtain ⟨i1, i2⟩ := ih (fun l hl => h l (by simp [hl]))
      have hx := h x (by simp)
      constructor
      · rw [List.flatten_cons, List.length_append, i1, hx, List.length_cons]; omega
      · rw [List.map_cons, List.flatten_cons, List.length_append, i2, List.length_append, hx,
          List.length_cons]; simp [endline]; omega
  obtain ⟨a1, a2⟩ := a full h1
  have hlen := congrArg List.length h4
  rw [List.length_append, a1] at hlen
  rw [List.length_append, a2]
  omega

/-- the size field as written by `EncodeSz` -/
def szBytes (r c : Nat) : List UInt8 := List.replicate 8 0 ++ le64 (c ||| r * 2 ^ 32)

theorem szBytes_ne (r c : Nat) : szBytes r c ≠ [] := by simp [szBytes]

theorem szText_length (r c : Nat) : (encF false (szBytes r c)).length = 24 := by
  rw [encF_length, szBytes, sizeBytes_length]

theorem encodeSz_mod (r c : Nat) :
    encodeSz (UInt32.ofNat r) (UInt32.ofNat c) = .ok (encF false (szBytes (r % 2 ^ 32) (c % 2 ^ 32))) := by
  have t1 : (UInt32.ofNat r).toNat = r % 2 ^ 32 := UInt32.toNat_ofNat' ..
  have t2 : (UInt32.ofNat c).toNat = c % 2 ^ 32 := UInt32.toNat_ofNat' ..
  simp only [encodeSz, t1, t2, base64Encode]
  exact encode_eq false (szBytes_ne _ _)

theorem encodeSz_eq (r c : Nat) (hr : r < 2 ^ 32) (hc : c < 2 ^ 32) :
    encodeSz (UInt32.ofNat r) (UInt32.ofNat c) = .ok (encF false (szBytes r c)) := by
  rw [encodeSz_mod, Nat.mod_eq_of_lt hr, Nat.mod_eq_of_lt hc]

theorem encodeEncodings_eq : encodeEncodings true true = .ok 3 := by decide

/-- the text before the marker lines and the checksum are put around it -/
def hashBody (m : BitMatrix) (code : List UInt8) : List UInt8 :=
  splitLoop endline 76 (by decide) (encF false (inner (encF false code) (encF false (szBytes (m.isize % 2 ^ 32) (m.jsize % 2 ^ 32))) 3))

/-- The hash of any matrix with cells. -/
theorem encodeHash_gen {m : BitMatrix} (w : WF m) (hi : 0 < m.isize) (hj : 0 < m.jsize) :
    ∃ code, Rle.encode m = .ok code ∧ code ≠ [] ∧ code.length ≤ m.isize * m.jsize + 1 ∧
      encodeHash m = if (hashBody m code).length % 2 ^ 32 = 0 then .throw .invalidArgument
        else if crc32 (Spec.covered (hashBody m code)) = 0 then .throw .runtimeError
        else .ok (strBegin ++ (hashBody m code ++ Spec.checksumText (Spec.covered (hashBody m code))) ++ strEnd) := by
  obtain ⟨code, e, _, _, hne, hlen⟩ := Rle.encode_eq w hi hj
  refine ⟨code, e, hne, hlen, ?_⟩
  have hn : opNot m = false := by rw [opNot_eq w]; simp; omega
  have hE : encodeHash m = (do
      let r ← base64Encode (inner (encF false code) (encF false (szBytes (m.isize % 2 ^ 32) (m.jsize % 2 ^ 32))) 3) .radix64
      .ok (strBegin ++ r ++ strEnd)) := by
    simp only [encodeHash, hn, Bool.false_eq_true, if_false, e, Res.ok_bind]
    rw [show base64Encode code .standard = .ok (encF false code) from encode_eq false hne, Res.ok_bind,
      encodeSz_mod, Res.ok_bind, encodeEncodings_eq, Res.ok_bind]
    rfl
  rw [hE, show base64Encode (inner (encF false code) (encF false (szBytes (m.isize % 2 ^ 32) (m.jsize % 2 ^ 32))) 3) .radix64 = _ from
    Props.radix64Encode_gen (by simp [inner])]
  unfold hashBody
  split
  · rfl
  · split <;> rfl

/-- Everything about the hash of a matrix with cells. -/
theorem encodeHash_cases {m : BitMatrix} (w : WF m) (hi : 0 < m.isize) (hj : 0 < m.jsize)
    (hs : m.isize * m.jsize < 2 ^ 31) :
    ∃ code, Rle.encode m = .ok code ∧ code ≠ [] ∧
      let t := inner (encF false code) (encF false (szBytes m.isize m.jsize)) 3
      let body := splitLoop endline 76 (by decide) (encF false t)
      body.length < 2 ^ 32 - 8 ∧
      (crc32 body = 0 → encodeHash m = .throw .runtimeError) ∧
      (crc32 body ≠ 0 → ∃ R, base64Encode t .radix64 = .ok R ∧ base64Decode R .radix64 = .ok t ∧
        R = body ++ Spec.checksumText body ∧ encodeHash m = .ok (strBegin ++ R ++ strEnd)) := by
  have hi32 : m.isize < 2 ^ 32 := by
    have := Nat.le_mul_of_pos_right m.isize hj; omega
  have hj32 : m.jsize < 2 ^ 32 := by
    have := Nat.le_mul_of_pos_left m.jsize hi; omega
  obtain ⟨code, e, _, _, hne, hlen⟩ := Rle.encode_eq w hi hj
  refine ⟨code, e, hne, ?_⟩
  have hp := encF_length false code
  have hil : (inner (encF false code) (encF false (szBytes m.isize m.jsize)) 3).length =
      (encF false code).length + 62 := by
    simp [inner, sp_length, ss_length, se_length, szText_length]
  have htne : inner (encF false code) (encF false (szBytes m.isize m.jsize)) 3 ≠ [] := by
    simp [inner]
  intro t body
  have hbl : body.length < 2 ^ 32 - 8 := by
    have h1 := splitLoop_length (encF false t) (encF_ne_nil false htne)
    have h2 := encF_length false t
    have h3 : t.length = (encF false code).length + 62 := hil
    show (splitLoop endline 76 (by decide) (encF false t)).length < 2 ^ 32 - 8
    omega
  have hn : opNot m = false := by rw [opNot_eq w]; simp; omega
  have hE : encodeHash m = (do
      let r ← base64Encode t .radix64
      .ok (strBegin ++ r ++ strEnd)) := by
    simp only [encodeHash, hn, Bool.false_eq_true, if_false, e, Res.ok_bind]
    rw [show base64Encode code .standard = .ok (encF false code) from encode_eq false hne, Res.ok_bind,
      encodeSz_eq _ _ hi32 hj32, Res.ok_bind, encodeEncodings_eq, Res.ok_bind]
    rfl
  obtain ⟨b', hb', hr⟩ := Props.C22_roundtrip t htne
  have hbb : b' = body := by
    have h := encodeSep_eq 76 (by decide) htne
    have h' : encodeWithSeparator t endline 76 = .ok b' := hb'
    rw [h] at h'; injection h' with h'; exact h'.symm
  subst hbb
  obtain ⟨r1, r2⟩ := hr (by omega)
  refine ⟨hbl, fun h0 => by rw [hE, r2 h0]; rfl, fun h0 => ?_⟩
  obtain ⟨R, hR, hD⟩ := r1 h0
  refine ⟨R, hR, hD, ?_, by rw [hE, hR]; rfl⟩
  have hbne : body ≠ [] := by
    intro hh
    have := filter_splitLoop 76 (by decide) _ (encF_noCRLF false t)
    rw [show splitLoop endline 76 (by decide) (encF false t) = body from rfl, hh] at this
    exact encF_ne_nil false htne (by simpa using this.symm)
  have h4 : radix64Encode t = .ok R := hR
  simp only [radix64Encode] at h4
  rw [if_neg (show t ≠ [] from htne)] at h4
  rw [show encodeMime t = .ok body from hb', Res.ok_bind, Props.calc_body _ hbne (by omega),
    Res.ok_bind, if_neg h0, encode_eq false (by simp [le32]), Res.ok_bind, Res.ok_bind] at h4
  injection h4 with h4; exact (by rw [Props.crcText_eq]; exact h4.symm)

/-! ### rejection -/

theorem decodeHash_noBegin (p : Platform) (al : Alloc) (h : List UInt8)
    (hb : h.take 32 ≠ strBegin) : decodeHash p al h = .throw .invalidArgument := by
  unfold decodeHash
  by_cases hn : h = []
  · rw [if_pos hn]
  · rw [if_neg hn, substr_ok (by omega), Res.ok_bind, List.drop_zero, strBegin_length, if_pos hb]

theorem decodeHash_noEnd (p : Platform) (al : Alloc) (h : List UInt8) (hl : 30 ≤ h.length)
    (he : h.drop (h.length - 30) ≠ strEnd) : decodeHash p al h = .throw .invalidArgument := by
  by_cases hb : h.take 32 = strBegin
  · have hn : h ≠ [] := by rintro rfl; simp at hl
    unfold decodeHash
    rw [if_neg hn, substr_ok (by omega), Res.ok_bind, List.drop_zero, strBegin_length, if_neg (by simp [hb]),
      strEnd_length, subSz_le hl, substr_ok (by omega), Res.ok_bind]
    rw [List.take_of_length_le (by simp; omega), if_pos he]
  · exact decodeHash_noBegin p al h hb

/-- characters of a standard encoding are not hyphens -/
theorem encF_noHyphen (s : List UInt8) : ∀ c ∈ encF false s, c ≠ 45 := by
  intro c hc
  obtain ⟨k, hk, rfl⟩ := List.getElem_of_mem hc
  have := encF_getElem false s k hk
  rw [List.getElem?_eq_getElem hk] at this
  injection this with this
  rw [this]
  have hall : ∀ n < 64, alphabet false n ≠ 45 := by decide +kernel
  split
  · apply hall
    have hb : ∀ n, msbBit s n ≤ 1 := by
      intro n; rw [msbBit_eq]; have := Nat.mod_lt ((s.getD (n / 8) 0).toNat / 2 ^ (7 - n % 8)) (show 0 < 2 by omega); omega
    have b0 := hb (6 * k)
    have b1 := hb (6 * k + 1)
    have b2 := hb (6 * k + 2)
    have b3 := hb (6 * k + 3)
    have b4 := hb (6 * k + 4)
    have b5 := hb (6 * k + 5)
    unfold sextet
    omega
  · decide

theorem splitLoop_mem (v : List UInt8) (hv : v ≠ []) :
    ∀ c ∈ splitLoop endline 76 (by decide) v, c ∈ v ∨ c = 13 ∨ c = 10 := by
  obtain ⟨full, last, h1, h2, h3, h4, h5⟩ := splitLoop_spec 76 (by decide) v hv
  rw [h5]
  intro c hc
  rw [← h4]
  simp only [List.mem_append, List.mem_flatten, List.mem_map] at hc ⊢
  rcases hc with ⟨l, ⟨a, ha, rfl⟩, hl⟩ | hc
  · rcases List.mem_append.mp hl with hl | hl
    · exact .inl (.inl ⟨a, ha, hl⟩)
    · simp [endline] at hl; exact .inr hl
  · exact .inl (.inr hc)

theorem new_cases (al : Alloc) (r c : Nat) :
    BitMatrix.new al r c = BitMatrix.new Alloc.ok r c ∨ BitMatrix.new al r c = BitMatrix.empty := by
  rw [new_eq (al := Alloc.ok) rfl]
  simp only [BitMatrix.new, V2.resize, BitMatrix.empty]
  cases al r (bytesPerRow c) with
  | none => left; rfl
  | some k =>
    cases k with
    | zero => right; rfl
    | succ k =>
      by_cases h : k < r
      · right; simp [h]
      · left; simp [h]

theorem decodeMatrix_al (al : Alloc) (str : List UInt8) (r c : UInt32) :
    Rle.decodeMatrix al str r c = Rle.decodeMatrix Alloc.ok str r c ∨
      Rle.decodeMatrix al str r c = .ok BitMatrix.empty := by
  rcases new_cases al r.toNat c.toNat with h | h
  · left; simp only [Rle.decodeMatrix, h]
  · right; exact Rle.decodeMatrix_allocFail r c h

end Verif.LayoutMatrix
