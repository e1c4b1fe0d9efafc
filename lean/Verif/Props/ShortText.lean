import Verif.Props.HashText
import Verif.Props.TextSize

/-! C96: what a short text can make the reader ask for. -/

namespace Verif.Props
open Verif BitMatrix LayoutMatrix Base64 Spec Spec.HashText Generator
open Verif.Spec.Msk (bytes)

theorem decode_nothing (al : Alloc) (r c : UInt32) : Rle.decodeMatrix al [0] r c = .ok (BitMatrix.new al r.toNat c.toNat) := by
  have h0 : ([0] : List UInt8) ≠ [] := by decide
  simp only [Rle.decodeMatrix, h0, if_false]
  have : Rle.forChars Rle.decChar [0] ⟨BitMatrix.new al r.toNat c.toNat, 0, 0⟩ =
      .ok () (⟨BitMatrix.new al r.toNat c.toNat, 0, 0⟩ : Rle.DecSt) := rfl
  rw [this]

/-- the text of 160 characters: an empty run for an `r × c` matrix -/
theorem short_text (p : Platform) (hp : p.maskedShift = true) (r c : Nat) (hr : r < 2 ^ 32) (hc : c < 2 ^ 32)
    (hch : p.charSigned = false ∨ (AsciiDim r ∧ AsciiDim c)) :
    ∃ h : List UInt8, h.length = 160 ∧ ∀ al, decodeHash p al h = .ok (BitMatrix.new al r c) := by
  let D := inner (encF false [0]) (encF false (szBytes r c)) 3
  let body := splitLoop endline 76 (by decide) (encF false D)
  have hD : D ≠ [] := by simp [D, inner]
  have hDl : D.length = 66 := by
    simp only [D, inner, List.length_append, sp_length, ss_length, se_length, szText_length]
    rfl
  have hbl : body.length = 90 := by
    simp only [body]
    rw [splitLoop_exact _ (encF_ne_nil false hD), encF_length, hDl]
    rfl
  have hbody : body ≠ [] := by
    intro e
    rw [e] at hbl
    cases hbl
  have hl : (bytes "---------BEGIN_MATRIX---------\r\n" ++ body ++ Spec.checksumText body ++ bytes "\r\n---------END_MATRIX---------").length = 160 := by
    simp only [List.length_append]
    rw [begin_eq, end_eq, strBegin_length, strEnd_length, hbl, crcText_length]
  refine ⟨_, hl, fun al => ?_⟩
  have hcar : Carries (bytes "---------BEGIN_MATRIX---------\r\n" ++ body ++ Spec.checksumText body ++ bytes "\r\n---------END_MATRIX---------") D :=
    ⟨body, ⟨hbody, rfl⟩, reads_of_mime (decodeSep_encode 76 (by decide) hD)⟩
  have hsec : Sections D (encF false [0]) (encF false (szBytes r c)) 3 := by
    refine ⟨bytes "__PARAMETERS__", by decide, szText_length r c, by decide, ?_, ⟨[], _, by simp; rfl⟩⟩
    simp only [D, inner, param_eq, size_eq, type_eq, List.append_assoc]
  rw [carries_after p al (by rw [hl]; norm_num) hcar, after_sections p al hsec,
    show base64Decode (encF false (szBytes r c)) .standard = .ok (szBytes r c) from standardDecode_encF false (szBytes_ne r c), Res.ok_bind,
    szBytes, decodeSz_plain hp _ _ hr hc]
  · rw [Res.ok_bind]
    have hf : (3 : UInt8).toNat.testBit 1 = true := by decide
    simp only [finish, hf, if_true]
    rw [show base64Decode (encF false [0]) .standard = .ok [0] from standardDecode_encF false (by decide), Res.ok_bind, decode_nothing,
      UInt32.toNat_ofNat', UInt32.toNat_ofNat', Nat.mod_eq_of_lt hr, Nat.mod_eq_of_lt hc]
  · intro x hx
    unfold charToSize
    rcases hch with hch | hch
    · simp [hch]
    · have := (le64_bytes _ _ hr hc).mp hch x hx
      rw [if_neg (by omega)]

/-- **C96** For any numbers `r` and `c` there is a text of 160 characters which makes `DecodeHash` construct an `r`×`c` matrix: a request for `r` rows of ⌈`c`/8⌉
bytes.  If it is granted the result is a dark matrix of that size; if it is refused, the empty one. -/
theorem C96_short_text (p : Platform) (hp : p.maskedShift = true) (r c : Nat) (hr : r < 2 ^ 32) (hc : c < 2 ^ 32)
    (hch : p.charSigned = false ∨ (AsciiDim r ∧ AsciiDim c)) :
    ∃ h : List UInt8, h.length = 160 ∧ ∀ al : Alloc,
      (al r ((c + 7) / 8) = none → ∃ m, decodeHash p al h = .ok m ∧ Built m ∧ m.isize = r ∧ m.jsize = c ∧
        ∀ i j, i < r → j < c → BitMatrix.get m i j = .ok false) ∧
      (∀ k ≤ r, al r ((c + 7) / 8) = some k → decodeHash p al h = .ok BitMatrix.empty) := by
  obtain ⟨h, hl, hd⟩ := short_text p hp r c hr hc hch
  have hb : bytesPerRow c = (c + 7) / 8 := by unfold bytesPerRow; split <;> omega
  refine ⟨h, hl, fun al => ⟨fun ha => ?_, fun k hk ha => ?_⟩⟩
  · have hm : Built (BitMatrix.new al r c) := by
      rw [new_eq (by rw [hb]; exact ha)]
      have := Built.new r c (by omega) (by omega)
      rwa [new_eq rfl] at this
    refine ⟨_, hd al, hm, ?_, ?_, fun i j hi hj => ?_⟩
    · rw [new_eq (by rw [hb]; exact ha)]
    · rw [new_eq (by rw [hb]; exact ha)]
    · have hbl := @blank_dark r c i j
      have w := (blank_shape r c).1
      rw [new_eq (by rw [hb]; exact ha)]
      rw [lit_iff w] at hbl
      have e : (⟨List.replicate r (List.replicate (bytesPerRow c) 0), r, c⟩ : BitMatrix) = Generator.blank r c := rfl
      rw [e, get_eq w hi hj]
      simpa [Generator.blank, hi, hj] using hbl
  · rw [hd, C16_new_alloc_failure al r c k (by rw [hb]; exact ha) hk]

/-- **C96** The same through a file: `ReadFile` on a file of 160 characters replaces the object by a dark matrix of any size up to 2³² − 1 rows and
columns, if there is memory for it; otherwise it answers `false`, as for a file that does not exist, and leaves the object alone. -/
theorem C96_read_file (p : Platform) (hp : p.maskedShift = true) (r c : Nat) (hr : r < 2 ^ 32) (hc : c < 2 ^ 32) (hr0 : 0 < r) (hc0 : 0 < c)
    (hch : p.charSigned = false ∨ (AsciiDim r ∧ AsciiDim c)) :
    ∃ h : List UInt8, h.length = 160 ∧ ∀ (al : Alloc) (fs : Fs) (name : List UInt8) (_ : name ≠ []) (_ : fs.readable name = true)
      (_ : fs.files name = some h) (m0 : BitMatrix),
      (al r ((c + 7) / 8) = none → ∃ m, readFile p al fs name m0 = .ok true m ∧ m.isize = r ∧ m.jsize = c ∧
        ∀ i j, i < r → j < c → BitMatrix.get m i j = .ok false) ∧
      (∀ k ≤ r, al r ((c + 7) / 8) = some k → readFile p al fs name m0 = .ok false m0) := by
  obtain ⟨h, hl, hd⟩ := C96_short_text p hp r c hr hc hch
  refine ⟨h, hl, fun al fs name hn hrd hf m0 => ⟨fun ha => ?_, fun k hk ha => ?_⟩⟩
  · obtain ⟨m, e, hm, d1, d2, hb⟩ := (hd al).1 ha
    have hno : opNot m = false := by rw [opNot_eq hm.inv.1, d1, d2]; simp; omega
    refine ⟨m, ?_, d1, d2, hb⟩
    simp only [readFile, hn, if_false, hrd, hf, e, hno]
    rfl
  · have e := (hd al).2 k hk ha
    have hno : opNot BitMatrix.empty = true := rfl
    simp only [readFile, hn, if_false, hrd, hf, e, hno]
    rfl

/-- **C96** And a hash of the library itself can ask for more than there is: where `char` is signed, the hash of a bitmap with a dimension byte of 0x80 or
more (128 columns, say) announces at least 2³¹ rows.  If that many rows are refused, `ReadFile` answers `false` and leaves the object alone. -/
theorem C96_signed (p : Platform) (hp : p.maskedShift = true) (hs : p.charSigned = true) (m : BitMatrix) (hm : Built m) (h1 : 0 < m.isize)
    (h2 : 0 < m.jsize) (hi31 : m.isize < 2 ^ 31) (hj32 : m.jsize < 2 ^ 32) (hc : ¬ (AsciiDim m.isize ∧ AsciiDim m.jsize))
    (h : List UInt8) (he : encodeHash m = .ok h) :
    (∃ m', decodeHash p Alloc.ok h = .ok m' ∧ 2 ^ 31 ≤ m'.isize) ∧
    ∀ al : Alloc, (∀ r b, 2 ^ 31 ≤ r → ∃ k ≤ r, al r b = some k) → decodeHash p al h = .ok BitMatrix.empty ∧
      ∀ (fs : Fs) (name : List UInt8) (_ : name ≠ []) (_ : fs.readable name = true) (_ : fs.files name = some h) (m0 : BitMatrix),
        readFile p al fs name m0 = .ok false m0 := by
  have hb : ∃ x ∈ le64 (m.jsize ||| m.isize * 2 ^ 32), 128 ≤ x.toNat := by
    by_contra hh
    push Not at hh
    exact hc ((le64_bytes _ _ (by omega) hj32).mpr hh)
  obtain ⟨c, r, hdz, hr⟩ := decodeSz_signed hp hs _ hb
  have key : ∀ al, ∃ code, code ≠ [] ∧ decodeHash p al h = Rle.decodeMatrix al code r c := by
    intro al
    obtain ⟨code, ec, hne, hd⟩ := decode_of_encode p al hm h1 h2 he
    rw [Nat.mod_eq_of_lt (by omega : m.isize < 2 ^ 32), Nat.mod_eq_of_lt hj32] at hd
    exact ⟨code, hne, by rw [hd, szBytes, hdz, Res.ok_bind]⟩
  refine ⟨?_, fun al hal => ?_⟩
  · obtain ⟨code, hne, hd⟩ := key Alloc.ok
    obtain ⟨m', e', _, d1, _⟩ := Rle.decodeMatrix_eq hne r c
    exact ⟨m', by rw [hd, e'], by omega⟩
  · obtain ⟨code, hne, hd⟩ := key al
    obtain ⟨k, hk, ha⟩ := hal r.toNat (bytesPerRow c.toNat) hr
    have e : decodeHash p al h = .ok BitMatrix.empty := by
      rw [hd, Rle.decodeMatrix_allocFail r c (C16_new_alloc_failure al r.toNat c.toNat k ha hk)]
    refine ⟨e, fun fs name hn hrd hf m0 => ?_⟩
    have hno : opNot BitMatrix.empty = true := rfl
    simp only [readFile, hn, if_false, hrd, hf, e, hno]
    rfl

/-- 4 294 967 295 × 4 294 967 295 cells (two exabytes of memory) in 160 characters -/
example : ∃ h : List UInt8, h.length = 160 ∧ ∃ m, decodeHash ⟨false, true⟩ Alloc.ok h = .ok m ∧ m.isize = 4294967295 ∧ m.jsize = 4294967295 := by
  obtain ⟨h, hl, hd⟩ := C96_short_text ⟨false, true⟩ rfl 4294967295 4294967295 (by norm_num) (by norm_num) (.inl rfl)
  obtain ⟨m, e, _, d1, d2, _⟩ := (hd Alloc.ok).1 rfl
  exact ⟨h, hl, m, e, d1, d2⟩

end Verif.Props
