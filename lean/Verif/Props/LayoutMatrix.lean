import Verif.Props.Rle
import Verif.Proofs.LayoutMatrix

/-! Properties C29–C34: workspace coordinates, hashes and files of `LayoutMatrix`. -/

namespace Verif.Props
open Verif BitMatrix Base64 LayoutMatrix
open Verif.Spec (crc32)

/-! ### C29 -/

/-- **C29** `SetAngleCoords` accepts exactly left ≤ right and bottom ≤ top; on success the corners are the
arguments, on failure the object is unchanged. -/
theorem C29_setAngleCoords (w : Workspace) (lt rb : Coord) :
    ((w.setAngleCoords lt rb).1 = true ↔ lt.x ≤ rb.x ∧ rb.y ≤ lt.y) ∧
    ((w.setAngleCoords lt rb).1 = true → (w.setAngleCoords lt rb).2 = ⟨lt, rb⟩) ∧
    ((w.setAngleCoords lt rb).1 = false → (w.setAngleCoords lt rb).2 = w) := by
  unfold Workspace.setAngleCoords
  split
  · rename_i h; simp; omega
  · rename_i h; simp; omega

/-- **C29** `isInWorkspace` is membership in the open rectangle. -/
theorem C29_isInWorkspace (w : Workspace) (p : Coord) :
    w.isInWorkspace p = true ↔
      (w.leftTop.x < p.x ∧ p.x < w.rightBot.x) ∧ (w.rightBot.y < p.y ∧ p.y < w.leftTop.y) := by
  unfold Workspace.isInWorkspace
  split
  · split <;> simp <;> omega
  · simp; omega

/-- **C29** consequence: after any history of `SetAngleCoords` calls on a fresh object the rectangle is
well formed, and no corner is ever "in" the workspace. -/
theorem C29_history (calls : List (Coord × Coord)) :
    let w := calls.foldl (fun w c => (w.setAngleCoords c.1 c.2).2) Workspace.new
    w.leftTop.x ≤ w.rightBot.x ∧ w.rightBot.y ≤ w.leftTop.y ∧
      w.isInWorkspace w.leftTop = false ∧ w.isInWorkspace w.rightBot = false := by
  have key : ∀ (calls : List (Coord × Coord)) (w : Workspace),
      w.leftTop.x ≤ w.rightBot.x ∧ w.rightBot.y ≤ w.leftTop.y →
      let w := calls.foldl (fun w c => (w.setAngleCoords c.1 c.2).2) w
      w.leftTop.x ≤ w.rightBot.x ∧ w.rightBot.y ≤ w.leftTop.y := by
    intro calls
    induction calls with
    | nil => intro w h; exact h
    | cons c cs ih =>
      intro w h
      apply ih
      obtain ⟨h1, h2, h3⟩ := C29_setAngleCoords w c.1 c.2
      cases hc : (w.setAngleCoords c.1 c.2).1 with
      | true => beta_reduce; rw [h2 hc]; exact h1.mp hc
      | false => beta_reduce; rw [h3 hc]; exact h
  intro w
  have := key calls Workspace.new (by decide)
  refine ⟨this.1, this.2, ?_, ?_⟩
  · rw [Bool.eq_false_iff, ne_eq, C29_isInWorkspace]; omega
  · rw [Bool.eq_false_iff, ne_eq, C29_isInWorkspace]; omega

/-! ### C30 -/

/-- A dimension of which all four bytes are below 0x80: it survives a signed `char`. -/
def AsciiDim (n : Nat) : Prop := ∀ k, k < 4 → n / 256 ^ k % 256 < 128

instance (n : Nat) : Decidable (AsciiDim n) := by unfold AsciiDim; infer_instance

theorem le64_bytes (r c : Nat) (_hr : r < 2 ^ 32) (hc : c < 2 ^ 32) :
    (AsciiDim r ∧ AsciiDim c) ↔ ∀ x ∈ le64 (c ||| r * 2 ^ 32), x.toNat < 128 := by
  have hor : c ||| r * 2 ^ 32 = c + r * 2 ^ 32 := by
    rw [Nat.or_comm, ← Nat.shiftLeft_eq, ← Nat.shiftLeft_add_eq_or_of_lt hc, Nat.add_comm]
  have hlo : ∀ k, k < 4 → (UInt8.ofNat ((c + r * 2 ^ 32) / 256 ^ k)).toNat = c / 256 ^ k % 256 := by
    intro k hk
    rw [UInt8.toNat_ofNat']
    rcases k with _ | _ | _ | _ | k <;> omega
  have hhi : ∀ k, k < 4 → (UInt8.ofNat ((c + r * 2 ^ 32) / 256 ^ (k + 4))).toNat = r / 256 ^ k % 256 := by
    intro k hk
    rw [UInt8.toNat_ofNat']
    rcases k with _ | _ | _ | _ | k <;> omega
  rw [hor]
  simp only [le64, List.mem_map, List.mem_range, forall_exists_index, and_imp, AsciiDim]
  constructor
  · rintro ⟨h1, h2⟩ x k hk rfl
    by_cases hk4 : k < 4
    · rw [hlo k hk4]; exact h2 k hk4
    · obtain ⟨d, rfl⟩ : ∃ d, k = d + 4 := ⟨k - 4, by omega⟩
      rw [hhi d (by omega)]; exact h1 d (by omega)
  · intro h
    refine ⟨fun k hk => ?_, fun k hk => ?_⟩
    · rw [← hhi k hk]; exact h _ (k + 4) (by omega) rfl
    · rw [← hlo k hk]; exact h _ k (by omega) rfl

/-- decoding the parts written by `EncodeHash` -/
theorem decodeParts_hash (p : Platform) (al : Alloc) {code : List UInt8} (hc : code ≠ []) (r c : Nat) :
    decodeParts p al (encF false code) (encF false (szBytes r c)) 3 = (do
      let (colCnt, rowCnt) ← decodeSz p (szBytes r c)
      Rle.decodeMatrix al code rowCnt colCnt) := by
  unfold decodeParts
  rw [show base64Decode (encF false (szBytes r c)) .standard = .ok (szBytes r c) from
    standardDecode_encF false (szBytes_ne r c), Res.ok_bind]
  rw [show base64Decode (encF false code) .standard = .ok code from standardDecode_encF false hc]
  have : (3 : UInt8).toNat.testBit 1 = true := by decide
  simp only [this, if_true, Res.ok_bind]

/-- **C30** `EncodeHash` refuses a matrix without cells, and for every other one yields a hash or throws `runtime_error` (the
Radix64 checksum happened to be 0) or, from 2³¹ cells on, possibly `invalid_argument` (the length of the text is a multiple of
2³²); it never has undefined behaviour. -/
theorem C30_encode_total (m : BitMatrix) (hm : Built m) :
    ((m.isize = 0 ∨ m.jsize = 0) → encodeHash m = .throw .invalidArgument) ∧
    (0 < m.isize → 0 < m.jsize → encodeHash m = .throw .runtimeError ∨ (∃ h, encodeHash m = .ok h) ∨
      (2 ^ 31 ≤ m.isize * m.jsize ∧ encodeHash m = .throw .invalidArgument)) := by
  obtain ⟨w, _, _⟩ := hm.inv
  refine ⟨fun h => ?_, fun h1 h2 => ?_⟩
  · have : opNot m = true := by rw [opNot_eq w]; simpa using h
    simp [encodeHash, this]
  · by_cases hs : m.isize * m.jsize < 2 ^ 31
    · obtain ⟨code, _, _, _, c1, c2⟩ := encodeHash_cases w h1 h2 hs
      by_cases h0 : crc32 (splitLoop endline 76 (by decide)
          (encF false (inner (encF false code) (encF false (szBytes m.isize m.jsize)) 3))) = 0
      · exact .inl (c1 h0)
      · obtain ⟨R, _, _, _, hR⟩ := c2 h0
        exact .inr (.inl ⟨_, hR⟩)
    · obtain ⟨code, _, _, _, he⟩ := encodeHash_gen w h1 h2
      rw [he]
      split
      · exact .inr (.inr ⟨by omega, rfl⟩)
      · split
        · exact .inl rfl
        · exact .inr (.inl ⟨_, rfl⟩)

theorem hash_parts {m : BitMatrix} (hm : Built m) (h1 : 0 < m.isize) (h2 : 0 < m.jsize) {h : List UInt8}
    (he : encodeHash m = .ok h) :
    ∃ code R body t, Rle.encode m = .ok code ∧ code ≠ [] ∧ h = strBegin ++ R ++ strEnd ∧
      base64Encode t .radix64 = .ok R ∧ base64Decode R .radix64 = .ok t ∧
      t = inner (encF false code) (encF false (szBytes (m.isize % 2 ^ 32) (m.jsize % 2 ^ 32))) 3 ∧
      R = body ++ Spec.checksumText (Spec.covered body) ∧
      body = splitLoop endline 76 (by decide) (encF false t) := by
  obtain ⟨w, _, _⟩ := hm.inv
  obtain ⟨code, ec, hne, _, hx⟩ := encodeHash_gen w h1 h2
  rw [hx] at he
  by_cases h0 : (hashBody m code).length % 2 ^ 32 = 0
  · rw [if_pos h0] at he; cases he
  · rw [if_neg h0] at he
    by_cases h3 : crc32 (Spec.covered (hashBody m code)) = 0
    · rw [if_pos h3] at he; cases he
    · rw [if_neg h3] at he
      have hE : base64Encode (inner (encF false code) (encF false (szBytes (m.isize % 2 ^ 32) (m.jsize % 2 ^ 32))) 3) .radix64 =
          .ok (hashBody m code ++ Spec.checksumText (Spec.covered (hashBody m code))) := by
        have := radix64Encode_gen (s := inner (encF false code) (encF false (szBytes (m.isize % 2 ^ 32) (m.jsize % 2 ^ 32))) 3)
          (by simp [inner])
        unfold hashBody at h0 h3 ⊢
        rw [if_neg h0, if_neg h3] at this
        exact this
      exact ⟨code, _, _, _, ec, hne, (Res.ok.inj he).symm, hE, C22_roundtrip_any_length _ _ hE, rfl, rfl, rfl⟩

/-- `DecodeHash` of a hash made by `EncodeHash`, reduced to its size field and run-length code -/
theorem decode_of_encode (p : Platform) (al : Alloc) {m : BitMatrix} (hm : Built m) (h1 : 0 < m.isize)
    (h2 : 0 < m.jsize) {h : List UInt8} (he : encodeHash m = .ok h) :
    ∃ code, Rle.encode m = .ok code ∧ code ≠ [] ∧ decodeHash p al h = (do
      let (colCnt, rowCnt) ← decodeSz p (szBytes (m.isize % 2 ^ 32) (m.jsize % 2 ^ 32))
      Rle.decodeMatrix al code rowCnt colCnt) := by
  obtain ⟨code, R, body, t, ec, hne, rfl, _, hD, ht, _⟩ := hash_parts hm h1 h2 he
  refine ⟨code, ec, hne, ?_⟩
  rw [decodeHash_parts p al (szText_length _ _) (by rw [hD, ht]), decodeParts_hash p al hne]

/-- **C30** With the shift semantics of the C++ standard, decoding any hash produced by the library is
undefined behaviour. -/
theorem C30_strict_ub (p : Platform) (hp : p.maskedShift = false) (al : Alloc) (m : BitMatrix) (hm : Built m)
    (h1 : 0 < m.isize) (h2 : 0 < m.jsize) (h : List UInt8)
    (he : encodeHash m = .ok h) : decodeHash p al h = .ub := by
  obtain ⟨code, _, _, hd⟩ := decode_of_encode p al hm h1 h2 he
  rw [hd, szBytes, decodeSz_strict hp]
  rfl

/-- **C30** With shift counts taken modulo 64, the round trip restores the matrix if `char` is unsigned or
all bytes of both dimensions are below 0x80. -/
theorem C30_roundtrip (p : Platform) (hp : p.maskedShift = true) (m : BitMatrix) (hm : Built m)
    (h1 : 0 < m.isize) (h2 : 0 < m.jsize) (hi32 : m.isize < 2 ^ 32) (hj32 : m.jsize < 2 ^ 32)
    (hc : p.charSigned = false ∨ (AsciiDim m.isize ∧ AsciiDim m.jsize))
    (h : List UInt8) (he : encodeHash m = .ok h) :
    ∃ m', decodeHash p Alloc.ok h = .ok m' ∧ SameBits m m' := by
  obtain ⟨code, ec, hne, hd⟩ := decode_of_encode p Alloc.ok hm h1 h2 he
  rw [Nat.mod_eq_of_lt hi32, Nat.mod_eq_of_lt hj32] at hd
  obtain ⟨s, m', e1, e2, hs⟩ := C26_roundtrip m hm h1 h2 hi32 hj32
  rw [ec] at e1; injection e1 with e1; subst e1
  refine ⟨m', ?_, hs⟩
  rw [hd, szBytes, decodeSz_plain hp _ _ hi32 hj32]
  · exact e2
  · intro x hx
    unfold charToSize
    rcases hc with hc | hc
    · simp [hc]
    · have := (le64_bytes _ _ hi32 hj32).mp hc x hx
      rw [if_neg (by omega)]

/-- **C30** With shift counts modulo 64 and a signed `char`, every matrix (below 2³¹ rows) with a dimension byte ≥ 0x80 (for
example 128 columns) comes back with a different row count, whatever the allocator does: the round trip
holds *exactly* for the dimensions of `C30_roundtrip`. -/
theorem C30_signed_char_corrupts (p : Platform) (hp : p.maskedShift = true) (hs : p.charSigned = true)
    (al : Alloc) (m : BitMatrix) (hm : Built m) (h1 : 0 < m.isize) (h2 : 0 < m.jsize)
    (hi31 : m.isize < 2 ^ 31) (hj32 : m.jsize < 2 ^ 32) (hc : ¬ (AsciiDim m.isize ∧ AsciiDim m.jsize))
    (h : List UInt8) (he : encodeHash m = .ok h) :
    ∃ m', decodeHash p al h = .ok m' ∧ m'.isize ≠ m.isize := by
  obtain ⟨code, ec, hne, hd⟩ := decode_of_encode p al hm h1 h2 he
  rw [Nat.mod_eq_of_lt (by omega : m.isize < 2 ^ 32), Nat.mod_eq_of_lt hj32] at hd
  have hb : ∃ x ∈ le64 (m.jsize ||| m.isize * 2 ^ 32), 128 ≤ x.toNat := by
    by_contra hh
    push Not at hh
    exact hc ((le64_bytes _ _ (by omega) hj32).mpr hh)
  obtain ⟨c, r, hdz, hr⟩ := decodeSz_signed hp hs _ hb
  rw [hd, szBytes, hdz, Res.ok_bind]
  rcases decodeMatrix_al al code r c with hx | hx
  · obtain ⟨m', e, _, d1, _⟩ := Rle.decodeMatrix_eq hne r c
    exact ⟨m', by simp only [hx, e], by omega⟩
  · exact ⟨BitMatrix.empty, by simp only [hx], by simp [BitMatrix.empty]; omega⟩

/-- **C30** The size field has 32 bits per dimension: a matrix with 2³² or more rows or columns never comes back, on no platform and
whatever the allocator does: whatever its hash decodes to has other dimensions. -/
theorem C30_wide_lost (p : Platform) (al : Alloc) (m : BitMatrix) (hm : Built m) (h1 : 0 < m.isize) (h2 : 0 < m.jsize)
    (hw : 2 ^ 32 ≤ m.isize ∨ 2 ^ 32 ≤ m.jsize) (h : List UInt8) (he : encodeHash m = .ok h) (m' : BitMatrix)
    (hd : decodeHash p al h = .ok m') : m'.isize ≠ m.isize ∨ m'.jsize ≠ m.jsize := by
  obtain ⟨code, ec, hne, hde⟩ := decode_of_encode p al hm h1 h2 he
  rw [hde] at hd
  cases hz : decodeSz p (szBytes (m.isize % 2 ^ 32) (m.jsize % 2 ^ 32)) with
  | ok cr =>
    obtain ⟨c, r⟩ := cr
    rw [hz, Res.ok_bind] at hd
    have hr := r.toNat_lt
    have hc := c.toNat_lt
    rcases decodeMatrix_al al code r c with hx | hx
    · obtain ⟨m2, e, _, d1, d2, _⟩ := Rle.decodeMatrix_eq hne r c
      simp only [hx, e] at hd
      injection hd with hd
      subst hd
      omega
    · simp only [hx] at hd
      injection hd with hd
      subst hd
      simp only [BitMatrix.empty]
      omega
  | throw e => rw [hz] at hd; simp at hd
  | ub => rw [hz] at hd; simp at hd

/-- **C30** The hash is faithful, on every platform: two matrices (below 2³² rows and columns) that have hashes have the same hash
exactly when they have the same size and the same bits. -/
theorem C30_hash_faithful (a b : BitMatrix) (ha : Built a) (hb : Built b) (a1 : 0 < a.isize) (a2 : 0 < a.jsize)
    (a3 : a.isize < 2 ^ 32) (a4 : a.jsize < 2 ^ 32) (b1 : 0 < b.isize) (b2 : 0 < b.jsize) (b3 : b.isize < 2 ^ 32)
    (b4 : b.jsize < 2 ^ 32) :
    (∀ h, encodeHash a = .ok h → encodeHash b = .ok h → SameBits a b) ∧ (SameBits a b → encodeHash a = encodeHash b) := by
  constructor
  · intro h ea eb
    obtain ⟨m1, e1, s1⟩ := C30_roundtrip ⟨false, true⟩ rfl a ha a1 a2 a3 a4 (.inl rfl) h ea
    obtain ⟨m2, e2, s2⟩ := C30_roundtrip ⟨false, true⟩ rfl b hb b1 b2 b3 b4 (.inl rfl) h eb
    rw [e1] at e2
    obtain rfl := Res.ok.inj e2
    obtain ⟨p1, p2, p3⟩ := s1
    obtain ⟨q1, q2, q3⟩ := s2
    exact ⟨p1.trans q1.symm, p2.trans q2.symm, fun i j hi hj => (p3 i j hi hj).trans (q3 i j (by omega) (by omega)).symm⟩
  · rintro ⟨s1, s2, s3⟩
    have wa := ha.inv.1
    have wb := hb.inv.1
    obtain ⟨ra, ua, ea⟩ := C27_exact_code a ha a1 a2 (cell a) (fun i j hi hj => get_eq wa hi hj)
    obtain ⟨rb, ub, eb⟩ := C27_exact_code b hb b1 b2 (cell a) (fun i j hi hj => by
      rw [← s3 i j (by omega) (by omega), get_eq wa (by omega) (by omega)])
    have : ra = rb := by
      rw [← ub, ← s1, ← s2]
      exact (ua ra).2 rfl
    subst this
    have na : opNot a = false := by rw [opNot_eq wa]; simp; omega
    have nb : opNot b = false := by rw [opNot_eq wb]; simp; omega
    unfold encodeHash
    rw [na, nb, ea, eb, s1, s2]

/-- **C30** A hash whose encoding flag says "not run-length encoded" can never be read back usefully: for
every payload and size field, whatever `DecodeHash` returns has no columns. -/
theorem C30_raw_hash_unreadable (p : Platform) (al : Alloc) (R payload szText : List UInt8) (c : UInt8)
    (hsz : szText.length = 24)
    (hR : base64Decode R .radix64 = .ok (payload ++ lit "__PARAMETERS__" ++ lit "__SIZE__" ++ szText ++
      lit "__ENCODE_TYPE__" ++ [c])) (hc : c.toNat.testBit 1 = false) (m : BitMatrix)
    (h : decodeHash p al (strBegin ++ R ++ strEnd) = .ok m) : m.jsize = 0 := by
  rw [decodeHash_parts p al hsz hR] at h
  unfold decodeParts at h
  simp only [hc, Bool.false_eq_true, if_false] at h
  cases h1 : base64Decode szText .standard with
  | ok sz =>
    rw [h1, Res.ok_bind] at h
    cases h2 : decodeSz p sz with
    | ok cr =>
      rw [h2, Res.ok_bind] at h
      cases h3 : BitMatrix.fromString al payload cr.2.toNat cr.1.toNat with
      | ok m0 => simp only [h3, Res.ok_bind] at h; injection h with h; rw [← h]; rfl
      | throw e => simp only [h3] at h; simp at h
      | ub => simp only [h3] at h; simp at h
    | throw e => rw [h2] at h; simp at h
    | ub => rw [h2] at h; simp at h
  | throw e => rw [h1] at h; simp at h
  | ub => rw [h1] at h; simp at h

/-! ### C31 -/

theorem set_middle (a b c : List UInt8) (i : Nat) (x : UInt8) (h1 : a.length ≤ i) (h2 : i < a.length + b.length) :
    (a ++ b ++ c).set i x = a ++ b.set (i - a.length) x ++ c := by
  rw [List.append_assoc, List.set_append_right _ _ h1, List.set_append_left _ _ (by omega), List.append_assoc]

/-- **C31** Changing any single character of any hash (shorter than 2³² characters) makes `DecodeHash` throw, on every platform. -/
theorem C31_single_char (p : Platform) (al : Alloc) (m : BitMatrix) (hm : Built m) (h1 : 0 < m.isize)
    (h2 : 0 < m.jsize) (h : List UInt8) (he : encodeHash m = .ok h) (hlen : h.length < 2 ^ 32)
    (i : Nat) (hi : i < h.length) (c : UInt8) (hc : c ≠ h[i]) :
    ∃ e, decodeHash p al (h.set i c) = .throw e := by
  obtain ⟨code, R, body, t, ec, hne, rfl, hRe, hD, ht, _⟩ := hash_parts hm h1 h2 he
  have hl : (strBegin ++ R ++ strEnd).length = 62 + R.length := by
    simp [strBegin_length, strEnd_length]; omega
  have hRl : R.length < 2 ^ 32 := by omega
  have hne_set : ∀ l : List UInt8, ∀ k (hk : k < l.length), c ≠ l[k] → l.set k c ≠ l := by
    intro l k hk hck hh
    have : (l.set k c)[k]'(by simpa using hk) = l[k] := by simp only [hh]
    rw [List.getElem_set_self] at this
    exact hck this
  by_cases hb : i < 32
  · refine ⟨_, decodeHash_noBegin p al _ ?_⟩
    rw [List.take_set, List.append_assoc, List.take_left' strBegin_length]
    refine hne_set strBegin i (by rw [strBegin_length]; exact hb) ?_
    rw [List.getElem_append_left (by simp [strBegin_length]; omega),
      List.getElem_append_left (by rw [strBegin_length]; exact hb)] at hc
    exact hc
  · by_cases hmid : i < 32 + R.length
    · rw [set_middle _ _ _ _ _ (by rw [strBegin_length]; omega) (by rw [strBegin_length]; omega),
        decodeHash_frame]
      have hget : (strBegin ++ R ++ strEnd)[i] = R[i - 32]'(by omega) := by
        rw [List.getElem_append_left (by simp [strBegin_length]; omega),
          List.getElem_append_right (by rw [strBegin_length]; omega)]
        simp only [strBegin_length]
      rw [hget] at hc
      have := C23_single_char t R hRe hRl (i - strBegin.length) (by rw [strBegin_length]; omega) c
        (by simpa only [strBegin_length] using hc)
      rw [this]
      exact ⟨_, rfl⟩
    · refine ⟨_, decodeHash_noEnd p al _ (by rw [List.length_set, hl]; omega) ?_⟩
      rw [List.length_set, hl]
      have hset : (strBegin ++ R ++ strEnd).set i c =
          (strBegin ++ R) ++ strEnd.set (i - (strBegin ++ R).length) c := by
        rw [List.set_append_right _ _ (by simp [strBegin_length]; omega)]
      rw [hset, List.drop_left' (by simp [strBegin_length]; omega)]
      apply hne_set
      · rw [List.getElem_append_right (by simp [strBegin_length]; omega)] at hc
        exact hc

/-- **C31** Every proper prefix of a hash (torn or interrupted write) makes `DecodeHash` throw
`invalid_argument`. -/
theorem C31_prefix (p : Platform) (al : Alloc) (m : BitMatrix) (hm : Built m) (h1 : 0 < m.isize)
    (h2 : 0 < m.jsize) (h : List UInt8) (he : encodeHash m = .ok h)
    (n : Nat) (hn : n < h.length) : decodeHash p al (h.take n) = .throw .invalidArgument := by
  obtain ⟨code, R, body, t, ec, hne, rfl, hRe, hD, ht, hR, hbody⟩ := hash_parts hm h1 h2 he
  have hl : (strBegin ++ R ++ strEnd).length = 62 + R.length := by
    simp [strBegin_length, strEnd_length]; omega
  by_cases hb : n < 32
  · apply decodeHash_noBegin
    intro hh
    have := congrArg List.length hh
    rw [strBegin_length] at this
    simp at this
    omega
  · have hlen : ((strBegin ++ R ++ strEnd).take n).length = n := by rw [List.length_take]; omega
    apply decodeHash_noEnd
    · rw [hlen]; omega
    · rw [hlen]
      -- the last thirty characters of the prefix, compared at one position
      intro hh
      have hget : ∀ k, k < 30 → (strBegin ++ R ++ strEnd)[n - 30 + k]? = strEnd[k]? := by
        intro k hk
        have hk' := congrArg (fun l => l[k]?) hh
        simp only [List.getElem?_drop] at hk'
        rw [List.getElem?_take, if_pos (by omega)] at hk'
        exact hk'
      by_cases hmid : n ≤ 32 + R.length
      · -- the last character would be a hyphen, but it lies in `strBegin`'s newline or in R
        have hlast := hget 29 (by omega)
        have he29 : strEnd[29]? = some 45 := by decide
        rw [he29, show n - 30 + 29 = n - 1 by omega] at hlast
        by_cases h32 : n = 32
        · subst h32
          rw [List.append_assoc, List.getElem?_append_left (by rw [strBegin_length]; omega)] at hlast
          have : strBegin[31]? = some 10 := by decide
          rw [show 32 - 1 = 31 from rfl, this] at hlast
          exact absurd hlast (by decide)
        · rw [List.append_assoc, List.getElem?_append_right (by rw [strBegin_length]; omega),
            List.getElem?_append_left (by rw [strBegin_length]; omega)] at hlast
          have hmem : (45 : UInt8) ∈ R := List.mem_of_getElem? hlast
          rw [hR, List.mem_append] at hmem
          have htne : t ≠ [] := by rw [ht]; simp [inner]
          rcases hmem with hmem | hmem
          · rw [hbody] at hmem
            rcases splitLoop_mem _ (encF_ne_nil false htne) _ hmem with h' | h' | h'
            · exact encF_noHyphen _ _ h' rfl
            · exact absurd h' (by decide)
            · exact absurd h' (by decide)
          · exact encF_noHyphen _ _ (crcText_eq (Spec.covered body) ▸ hmem) rfl
      · -- strEnd would start again inside strEnd
        obtain ⟨k, hk⟩ : ∃ k, n = 32 + R.length + k := ⟨n - (32 + R.length), by omega⟩
        have hk1 : 0 < k := by omega
        have hk2 : k < 30 := by omega
        have hx := hget (30 - k) (by omega)
        have hfull : (strBegin ++ R ++ strEnd)[n - 30 + (30 - k)]? = strEnd[0]? := by
          rw [List.getElem?_append_right (by simp [strBegin_length]; omega)]
          congr 1
          simp [strBegin_length]; omega
        rw [hfull] at hx
        have hall : ∀ k, k < 30 → 0 < k → strEnd[0]? ≠ strEnd[30 - k]? := by decide
        exact hall k hk2 hk1 hx

/-- **C31** Whatever `DecodeHash` accepts (hashes shorter than 2³² characters) is framed by the two marker
lines and carries the matching checksum. -/
theorem C31_accepted (p : Platform) (al : Alloc) (h : List UInt8) (m : BitMatrix) (hl : h.length < 2 ^ 32)
    (ha : decodeHash p al h = .ok m) :
    ∃ body, h = strBegin ++ (body ++ Spec.checksumText body) ++ strEnd ∧ body ≠ [] := by
  by_cases hb : h.take 32 = strBegin
  swap
  · rw [decodeHash_noBegin p al h hb] at ha; simp at ha
  have h32 : 32 ≤ h.length := by
    have := congrArg List.length hb
    rw [strBegin_length] at this; simp at this; omega
  by_cases he : h.drop (h.length - 30) = strEnd
  swap
  · rw [decodeHash_noEnd p al h (by omega) he] at ha; simp at ha
  by_cases h62 : 62 ≤ h.length
  · have hsplit : h = strBegin ++ (h.drop 32).take (h.length - 62) ++ strEnd := by
      have e1 : h = h.take 32 ++ h.drop 32 := (List.take_append_drop _ _).symm
      have e2 : h.drop 32 = (h.drop 32).take (h.length - 62) ++ (h.drop 32).drop (h.length - 62) :=
        (List.take_append_drop _ _).symm
      rw [List.drop_drop, show 32 + (h.length - 62) = h.length - 30 by omega, he] at e2
      rw [List.append_assoc, ← e2, ← hb, List.take_append_drop]
    generalize hRdef : (h.drop 32).take (h.length - 62) = R at hsplit
    have hRl : R.length = h.length - 62 := by rw [← hRdef]; simp; omega
    rw [hsplit, decodeHash_frame] at ha
    cases hd : base64Decode R .radix64 with
    | ok d =>
      by_cases hR : R = []
      · subst hR
        have : d = [] := by
          have := C22_empty.2; rw [this] at hd; injection hd with hd; exact hd.symm
        subst this
        rw [hd, Res.ok_bind] at ha
        have : substrFrom ([] : List UInt8) (subSz ([] : List UInt8).length parametersLen) =
            .throw .outOfRange := by decide +kernel
        rw [this] at ha
        simp at ha
      · obtain ⟨body, e, hb', _⟩ := C23_accepted R d hR (by omega) hd
        exact ⟨body, by rw [← e]; exact hsplit, hb'⟩
    | throw e => rw [hd] at ha; simp at ha
    | ub => rw [hd] at ha; simp at ha
  · -- the markers overlap: only possible by sharing CR LF
    exfalso
    have hov : h.length = 60 := by
      by_contra hne60
      -- position of strEnd[0] inside strBegin
      have hx : h[h.length - 30]? = strEnd[0]? := by
        rw [← he, List.getElem?_drop]; simp
      have hy : h[h.length - 30]? = strBegin[h.length - 30]? := by
        rw [← hb, List.getElem?_take, if_pos (by omega)]
      rw [hy] at hx
      have hall : ∀ k, k < 32 → 2 ≤ k → k ≠ 30 → strBegin[k]? ≠ strEnd[0]? := by decide
      exact hall (h.length - 30) (by omega) (by omega) (by omega) hx
    have hval : h = lit "---------BEGIN_MATRIX---------\r\n---------END_MATRIX---------" := by
      have e1 : h = h.take 32 ++ h.drop 32 := (List.take_append_drop _ _).symm
      have e2 : h.drop 32 = strEnd.drop 2 := by
        rw [← he, List.drop_drop]; congr 1; omega
      rw [e1, hb, e2]; decide
    rw [hval] at ha
    have hthrow : decodeHash p al (lit "---------BEGIN_MATRIX---------\r\n---------END_MATRIX---------") =
        .throw .runtimeError := by
      have hd : base64Decode (lit "---------END_MATRIX---------") .radix64 = .throw .runtimeError := by
        decide +kernel
      generalize hx : (lit "---------BEGIN_MATRIX---------\r\n---------END_MATRIX---------") = x
      have hxl : x.length = 60 := by rw [← hx]; decide
      have hxb : x.take 32 = strBegin := by rw [← hx]; decide
      have hxe : x.drop 30 = strEnd := by rw [← hx]; decide
      have hxi : x.drop 32 = lit "---------END_MATRIX---------" := by rw [← hx]; decide
      have hne : x ≠ [] := by rintro rfl; simp at hxl
      unfold decodeHash
      rw [if_neg hne, substr_ok (by omega), Res.ok_bind, List.drop_zero, strBegin_length,
        if_neg (by simp [hxb]), strEnd_length, hxl, subSz_le (by omega), substr_ok (by omega), Res.ok_bind]
      rw [show 60 - 30 = 30 from rfl, hxe, List.take_of_length_le (by rw [strEnd_length]),
        if_neg (by simp), substr_ok (by omega), Res.ok_bind, hxi, List.take_of_length_le]
      · rw [hd]; rfl
      · have : (lit "---------END_MATRIX---------").length = 28 := by decide
        rw [this]; decide +kernel
    rw [hthrow] at ha
    simp at ha

/-! ### C32, C33 -/

/-- **C32** `ReadFile` changes the object only when it returns `true`, and then the new matrix has cells. -/
theorem C32_read_unchanged_unless_true (p : Platform) (al : Alloc) (fs : Fs) (name : List UInt8) (m m' : BitMatrix) :
    (readFile p al fs name m = .ok false m' → m' = m) ∧
    (∀ e, readFile p al fs name m = .throw e m' → m' = m) ∧
    (readFile p al fs name m = .ok true m' → opNot m' = false) := by
  unfold readFile
  split
  · simp; exact fun h => h.symm
  split
  · simp; exact fun h => h.symm
  split
  · simp; exact fun h => h.symm
  split
  · simp
  · simp; exact fun h => h.symm
  · rename_i d _
    split
    · simp; exact fun h => h.symm
    · rename_i h
      simp only [Out.ok.injEq, Bool.true_eq_false, false_and, reduceCtorEq, assignMoveL, true_and]
      refine ⟨fun h => h.elim, fun _ h => h.elim, ?_⟩
      rintro rfl
      simpa using h

/-- **C32** An empty name, a missing or unreadable file give `false`; an empty file throws. -/
theorem C32_read_missing (p : Platform) (al : Alloc) (fs : Fs) (name : List UInt8) (m : BitMatrix) :
    (name = [] ∨ fs.readable name = false ∨ fs.files name = none → readFile p al fs name m = .ok false m) ∧
    (name ≠ [] → fs.readable name = true → fs.files name = some [] →
      readFile p al fs name m = .throw .invalidArgument m) := by
  constructor
  · intro h
    unfold readFile
    by_cases h1 : name = []
    · simp [h1]
    · by_cases h2 : fs.readable name = false
      · simp [h1, h2]
      · have h3 : fs.files name = none := by
          rcases h with h | h | h
          · exact absurd h h1
          · exact absurd h h2
          · exact h
        simp [h1, h2, h3]
  · intro h1 h2 h3
    simp [readFile, h1, h2, h3, decodeHash]

/-- **C32** A successful flush with all bytes stored, followed by a read of the same name, restores the
matrix into any object — under the platform conditions of C30. -/
theorem C32_flush_read (p : Platform) (hp : p.maskedShift = true) (m m0 : BitMatrix) (hm : Built m)
    (h1 : 0 < m.isize) (h2 : 0 < m.jsize) (h3 : m.isize < 2 ^ 32) (h4 : m.jsize < 2 ^ 32)
    (hc : p.charSigned = false ∨ (AsciiDim m.isize ∧ AsciiDim m.jsize))
    (fs fs' : Fs) (name : List UInt8) (stored : Nat) (hn : name ≠ []) (hr : fs.readable name = true)
    (hw : fs.writable name = true)
    (hst : ∀ h, encodeHash m = .ok h → h.length ≤ stored)
    (hf : flushFile m name stored fs = .ok true fs') :
    ∃ m', readFile p Alloc.ok fs' name m0 = .ok true m' ∧ SameBits m m' := by
  unfold flushFile at hf
  rw [if_neg hn, if_neg (by simp [hw])] at hf
  cases he : encodeHash m with
  | ub => rw [he] at hf; simp at hf
  | throw e => rw [he] at hf; simp at hf
  | ok h =>
    rw [he] at hf
    simp only [Out.ok.injEq, true_and] at hf
    obtain ⟨m', hd, hs⟩ := C30_roundtrip p hp m hm h1 h2 h3 h4 hc h he
    obtain ⟨code, _, hcne, hde⟩ := decode_of_encode p Alloc.ok hm h1 h2 he
    refine ⟨m', ?_, hs⟩
    have hv : opNot m' = false := by
      have hwf : WF m' := by
        rw [hde] at hd
        cases hz : decodeSz p (szBytes (m.isize % 2 ^ 32) (m.jsize % 2 ^ 32)) with
        | ok cr =>
          rw [hz, Res.ok_bind] at hd
          obtain ⟨m2, e2, w2, _⟩ := Rle.decodeMatrix_eq hcne cr.2 cr.1
          simp only [e2] at hd
          injection hd with hd
          exact hd ▸ w2
        | throw e => rw [hz] at hd; simp at hd
        | ub => rw [hz] at hd; simp at hd
      obtain ⟨s1, s2, _⟩ := hs
      rw [opNot_eq hwf]; simp; omega
    rw [← hf]
    simp only [readFile, hn, if_false, if_true, List.take_of_length_le (hst h he), hd, hv,
      Bool.false_eq_true, assignMoveL, hr, reduceCtorEq]

/-- **C32** Torn writes: whenever fewer bytes than the whole hash reach the disk, `FlushFile` still reports
success, but a later `ReadFile` throws and leaves the reading object unchanged: a truncated file is never
mistaken for a matrix. -/
theorem C32_torn_write_detected (p : Platform) (al : Alloc) (m m0 : BitMatrix) (hm : Built m)
    (h1 : 0 < m.isize) (h2 : 0 < m.jsize)
    (fs : Fs) (name : List UInt8) (stored : Nat) (hn : name ≠ []) (hr : fs.readable name = true)
    (hw : fs.writable name = true) (h : List UInt8) (he : encodeHash m = .ok h) (hst : stored < h.length) :
    ∃ fs', flushFile m name stored fs = .ok true fs' ∧
      readFile p al fs' name m0 = .throw .invalidArgument m0 := by
  refine ⟨_, by simp only [flushFile, hn, hw, Bool.true_eq_false, if_false, he]; rfl, ?_⟩
  simp only [readFile, hn, hr, Bool.true_eq_false, if_false, if_true, C31_prefix p al m hm h1 h2 h he stored hst]

/-- **C32** other files are never touched. -/
theorem C32_flush_other_files (m : BitMatrix) (name : List UInt8) (stored : Nat) (fs fs' : Fs) (r : Bool) (e : Exc)
    (h : flushFile m name stored fs = .ok r fs' ∨ flushFile m name stored fs = .throw e fs')
    (n : List UInt8) (hn : n ≠ name) : fs'.files n = fs.files n := by
  unfold flushFile at h
  split at h
  · simp at h; rw [← h.2]
  split at h
  · simp at h; rw [← h.2]
  cases he : encodeHash m with
  | ub => rw [he] at h; simp at h
  | throw e' => rw [he] at h; simp at h; rw [← h.2]; simp [hn]
  | ok x => rw [he] at h; simp at h; rw [← h.2]; simp [hn]

/-- **C33** `FlushFile` is not atomic: whenever the matrix cannot be encoded — in particular whenever it
has no cells — the call fails *and* the previous content of the file is gone. -/
theorem C33_flush_destroys (m : BitMatrix) (fs : Fs) (name : List UInt8) (stored : Nat) (hn : name ≠ [])
    (hw : fs.writable name = true) (e : Exc) (he : encodeHash m = .throw e) :
    ∃ fs', flushFile m name stored fs = .throw e fs' ∧ fs'.files name = some [] := by
  exact ⟨_, by simp only [flushFile, hn, hw, Bool.true_eq_false, if_false, he]; rfl, by simp⟩

/-- **C33** the case of the default-constructed matrix. -/
theorem C33_flush_empty_matrix (fs : Fs) (name : List UInt8) (stored : Nat) (hn : name ≠ [])
    (hw : fs.writable name = true) :
    ∃ fs', flushFile BitMatrix.empty name stored fs = .throw .invalidArgument fs' ∧
      fs'.files name = some [] :=
  C33_flush_destroys _ fs name stored hn hw _ (by decide)

/-- **C33** A crash at any point of `FlushFile` after the open leaves a prefix of the hash, i.e. never the
old content (unless that happened to be such a prefix). -/
theorem C33_crash_points (m : BitMatrix) (fs : Fs) (name : List UInt8) (hn : name ≠ [])
    (hw : fs.writable name = true) (h : List UInt8) (he : encodeHash m = .ok h) (stored : Nat) :
    ∃ fs', flushFile m name stored fs = .ok true fs' ∧ fs'.files name = some (h.take stored) := by
  exact ⟨_, by simp only [flushFile, hn, hw, Bool.true_eq_false, if_false, he]; rfl, by simp⟩

/-! ### C34 -/

/-- **C34** copy construction, copy assignment and both kinds of move between distinct objects deliver the
source's dimensions and bits. -/
theorem C34_copy_move (lhs m : BitMatrix) :
    copyNewB false m = m ∧ assignCopy false lhs m = m ∧ (moveNewL m).1 = m ∧
      (assignMoveB lhs m).1 = m ∧ (assignMoveL lhs m).1 = m := ⟨rfl, rfl, rfl, rfl, rfl⟩

/-- **C34** what happens to the source: the "move" constructors leave it intact (they copy), the move
assignments leave it without contents. -/
theorem C34_move_source (lhs m : BitMatrix) :
    (moveNewL m).2 = m ∧ (moveNewB m).2 = m ∧
      opNot (assignMoveB lhs m).2 = true ∧ opNot (assignMoveL lhs m).2 = true := by
  refine ⟨rfl, rfl, ?_, ?_⟩ <;> exact opNot_hollow rfl

/-- **C34** constructing from a `BitMatrix` rvalue loses the columns: the object has the row count of the
source but is invalid, and every `Get` throws. -/
theorem C34_rvalue_loses_columns (m : BitMatrix) :
    (moveNewB m).1.isize = m.isize ∧ opNot (moveNewB m).1 = true ∧
      ∀ i j, BitMatrix.get (moveNewB m).1 i j = .throw .runtimeError := by
  refine ⟨rfl, ?_, fun i j => by simp [BitMatrix.get, moveNewB]⟩
  unfold opNot
  split
  · rfl
  · simp [moveNewB]

/-- **C34** self-assignment: harmless for the copy operators, self-move empties the matrix. -/
theorem C34_self (m : BitMatrix) :
    assignCopy true m m = m ∧ selfMove m = BitMatrix.empty := ⟨rfl, rfl⟩

/-- **C34** `InitMatrFromHash` has the strong exception guarantee and otherwise installs exactly what
`DecodeHash` returns. -/
theorem C34_initFromHash (p : Platform) (al : Alloc) (h : List UInt8) (m : BitMatrix) :
    (∀ e m', initMatrFromHash p al h m = .throw e m' → m' = m ∧ decodeHash p al h = .throw e) ∧
    (∀ m', initMatrFromHash p al h m = .ok () m' → decodeHash p al h = .ok m') := by
  unfold initMatrFromHash
  cases decodeHash p al h with
  | ok d => simp [assignMoveL]
  | throw e => simp
  | ub => simp

/-! Non-vacuity. -/

/-- a 3 × 5 matrix has a hash; its dimensions are ASCII-safe -/
example : (∃ h, encodeHash (BitMatrix.new Alloc.ok 3 5) = .ok h) ∧ AsciiDim 3 ∧ AsciiDim 5 := by
  refine ⟨?_, by decide, by decide⟩
  rcases (C30_encode_total _ (.new 3 5 (by decide) (by decide))).2 (by decide) (by decide) with h | h | ⟨h, _⟩
  · exact absurd h (by decide +kernel)
  · exact h
  · exact absurd h (by decide +kernel)

example : ¬ AsciiDim 128 := by decide

/-- a matrix as in `C30_wide_lost`: 2³² + 1 rows, one column -/
example : Built (BitMatrix.new Alloc.ok (2 ^ 32 + 1) 1) ∧ (BitMatrix.new Alloc.ok (2 ^ 32 + 1) 1).isize = 2 ^ 32 + 1 :=
  ⟨.new _ _ (by decide) (by decide), by rw [new_eq rfl]⟩

end Verif.Props
