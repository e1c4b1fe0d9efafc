import Verif.Props.ShortText
import Verif.Props.TextContent

/-! C98: reading a bitmap file and storing the bitmap again. -/

namespace Verif.Props
open Verif BitMatrix LayoutMatrix Base64 Spec Spec.HashText Ieee

/-- the stored text is at least as long as cells/127 -/
theorem text_long (m : BitMatrix) (hm : Built m) (h1 : 0 < m.isize) (h2 : 0 < m.jsize) (h : List UInt8) (he : encodeHash m = .ok h) :
    m.isize * m.jsize ≤ 127 * h.length := by
  obtain ⟨s, es, l⟩ := C95_text_exact m hm h1 h2 h he
  obtain ⟨s', es', e, -⟩ := C27_structure m hm h1 h2
  rw [es] at es'
  cases es'
  have := expand_length_le s
  rw [e] at this
  unfold linesLen b64Len at l
  omega

theorem readFile_inv {p : Platform} {fs : Fs} {nm : List UInt8} {m m0 : BitMatrix} (hr : readFile p Alloc.ok fs nm m0 = .ok true m) :
    nm ≠ [] ∧ fs.readable nm = true ∧ ∃ h, fs.files nm = some h ∧ decodeHash p Alloc.ok h = .ok m ∧ opNot m = false := by
  unfold readFile at hr
  split_ifs at hr with a b
  · cases hr
  · cases hr
  · cases hf : fs.files nm with
    | none => rw [hf] at hr; cases hr
    | some h =>
      rw [hf] at hr
      dsimp only at hr
      cases hd : decodeHash p Alloc.ok h with
      | ub => rw [hd] at hr; cases hr
      | throw e => rw [hd] at hr; cases hr
      | ok m' =>
        rw [hd] at hr
        dsimp only at hr
        cases hno : opNot m' <;> simp [hno] at hr
        subst hr
        exact ⟨a, by simpa using b, h, rfl, hd, hno⟩

theorem flushFile_inv {m : BitMatrix} {name : List UInt8} {stored : Nat} {fs fs' : Fs} (hf : flushFile m name stored fs = .ok true fs') :
    fs.writable name = true ∧ ∃ h, encodeHash m = .ok h ∧ fs'.files name = some (h.take stored) ∧ fs'.readable = fs.readable ∧ fs'.writable = fs.writable := by
  unfold flushFile at hf
  split_ifs at hf with a b
  · cases hf
  · cases hf
  · cases he : encodeHash m with
    | ub => rw [he] at hf; cases hf
    | throw e => rw [he] at hf; cases hf
    | ok h =>
      rw [he] at hf
      cases hf
      exact ⟨by simpa using b, h, rfl, by simp, rfl, rfl⟩

/-- what a file gives that was read -/
theorem read_shape {p : Platform} {fs : Fs} {nm : List UInt8} {m m0 : BitMatrix} (hr : readFile p Alloc.ok fs nm m0 = .ok true m)
    (hl : ∀ h, fs.files nm = some h → h.length < 2 ^ 32) :
    p.maskedShift = true ∧ Built m ∧ 0 < m.isize ∧ 0 < m.jsize ∧ m.isize < 2 ^ 32 ∧ m.jsize < 2 ^ 32 := by
  obtain ⟨hn, hrd, h, hf, hd, hno⟩ := readFile_inv hr
  have hlen := hl h hf
  have hpos : 0 < m.isize ∧ 0 < m.jsize := by
    by_contra hh
    unfold opNot at hno
    simp at hno
    omega
  obtain ⟨_, -, hb, -⟩ := text_code p h hlen m hd hpos.2
  have hp : p.maskedShift = true := by
    cases hp : p.maskedShift
    · exfalso
      obtain ⟨h1, h2⟩ := C70_strict p hp Alloc.ok h hlen
      by_cases hx : (∃ body, Framed h body ∧ Overruns (noBreaks body)) ∨ (∃ D payload szText rest s, Carries h D ∧ SizeSection D payload szText rest ∧
          Reads szText s ∧ s.length = 16)
      · rw [h1 hx] at hd; cases hd
      · obtain ⟨e, he⟩ := h2 hx
        rw [he] at hd; cases hd
    · rfl
  refine ⟨hp, hb, hpos.1, hpos.2, ?_⟩
  rcases C70_read_file p hp fs nm h hn hrd hf hlen m0 with ⟨-, e⟩ | ⟨r, c, code, m', hc, -, -, e, d1, d2, -⟩ | ⟨-, e⟩ | ⟨-, -, -, e', e⟩
  · rw [hr] at e; cases e
  · rw [hr] at e
    cases e
    obtain ⟨_, _, _, _, -, -, ⟨_, -, -, s1, s2, -⟩, -⟩ := hc
    omega
  · rw [hr] at e; cases e
  · rw [hr] at e; cases e

/-- **C98** A file is read and its bitmap stored again (under any name), completely.  What is stored now is a normal form: it is at least cells/127
characters long; it is read as the same bitmap (where `char` is signed: if no byte of the sizes is 0x80 or more); and storing that bitmap once more
stores the same text. -/
theorem C98_rewrite (p : Platform) (fs fs' : Fs) (na nb : List UInt8) (m m0 m1 : BitMatrix) (stored : Nat)
    (hr : readFile p Alloc.ok fs na m0 = .ok true m) (hl : ∀ h, fs.files na = some h → h.length < 2 ^ 32) (hnb : nb ≠ [])
    (hf : flushFile m nb stored fs = .ok true fs') (hst : ∀ h, encodeHash m = .ok h → h.length ≤ stored) :
    ∃ text, fs'.files nb = some text ∧ m.isize * m.jsize ≤ 127 * text.length ∧
      (fs.readable nb = true → (p.charSigned = false ∨ (AsciiDim m.isize ∧ AsciiDim m.jsize)) →
        ∃ m', readFile p Alloc.ok fs' nb m1 = .ok true m' ∧ SameBits m m' ∧
          ∀ fs'', flushFile m' nb stored fs' = .ok true fs'' → fs''.files nb = some text) := by
  obtain ⟨hp, hb, h1, h2, h3, h4⟩ := read_shape hr hl
  obtain ⟨hw, h, he, hfile, hrd, -⟩ := flushFile_inv hf
  have hlen := hst h he
  rw [List.take_of_length_le hlen] at hfile
  refine ⟨h, hfile, text_long m hb h1 h2 h he, fun hrb hc => ?_⟩
  obtain ⟨m', e, hs⟩ := C32_flush_read p hp m m1 hb h1 h2 h3 h4 hc fs fs' nb stored hnb hrb hw hst hf
  refine ⟨m', e, hs, fun fs'' hf'' => ?_⟩
  have hb' : Built m' ∧ 0 < m'.isize ∧ 0 < m'.jsize := by
    obtain ⟨-, -, t, ht, hd, hno⟩ := readFile_inv e
    rw [hfile] at ht
    cases ht
    obtain ⟨code, ec, hne, hdec⟩ := decode_of_encode p Alloc.ok hb h1 h2 he
    refine ⟨?_, by rw [← hs.1]; exact h1, by rw [← hs.2.1]; exact h2⟩
    rw [hdec] at hd
    cases hz : decodeSz p (szBytes (m.isize % 2 ^ 32) (m.jsize % 2 ^ 32)) with
    | ub => rw [hz] at hd; cases hd
    | throw e => rw [hz] at hd; cases hd
    | ok cr =>
      obtain ⟨cc, rr⟩ := cr
      rw [hz, Res.ok_bind] at hd
      dsimp only at hd
      obtain ⟨m3, e3, b3, -⟩ := C27_decode_total code hne rr cc
      rw [e3] at hd
      cases hd
      exact b3
  obtain ⟨-, h'', he'', hfile'', -⟩ := flushFile_inv hf''
  have heq := (C30_hash_faithful m m' hb hb'.1 h1 h2 h3 h4 hb'.2.1 hb'.2.2 (by rw [← hs.1]; exact h3) (by rw [← hs.2.1]; exact h4)).2 hs
  rw [he, he''] at heq
  cases heq
  rw [hfile'', List.take_of_length_le hlen]

/-- **C98** Two files that are read as the same picture become the same text when they are stored again. -/
theorem C98_same_text (p : Platform) (fs fs1 fs2 : Fs) (na nb nc nd : List UInt8) (a b a0 b0 : BitMatrix) (stored : Nat)
    (ra : readFile p Alloc.ok fs na a0 = .ok true a) (rb : readFile p Alloc.ok fs nb b0 = .ok true b)
    (hl : ∀ n h, fs.files n = some h → h.length < 2 ^ 32) (fa : flushFile a nc stored fs = .ok true fs1)
    (fb : flushFile b nd stored fs1 = .ok true fs2) (hst : ∀ h, encodeHash a = .ok h ∨ encodeHash b = .ok h → h.length ≤ stored) (hcd : nc ≠ nd) :
    SameBits a b ↔ fs2.files nc = fs2.files nd := by
  obtain ⟨-, ba, a1, a2, a3, a4⟩ := read_shape ra (hl na)
  obtain ⟨-, bb, b1, b2, b3, b4⟩ := read_shape rb (hl nb)
  obtain ⟨-, h, ea, fa', -⟩ := flushFile_inv fa
  obtain ⟨-, k, eb, fb', -⟩ := flushFile_inv fb
  have fc := C32_flush_other_files b nd stored fs1 fs2 true .badAlloc (.inl fb) nc hcd
  rw [fc, fa', fb', List.take_of_length_le (hst h (.inl ea)), List.take_of_length_le (hst k (.inr eb))]
  obtain ⟨f1, f2⟩ := C30_hash_faithful a b ba bb a1 a2 a3 a4 b1 b2 b3 b4
  constructor
  · intro hs
    have := f2 hs
    rw [ea, eb] at this
    cases this
    rfl
  · intro e
    cases e
    exact f1 h ea eb

/-- **C98** Storing again can enlarge a file without bound: for all sizes there is a text of 160 characters such that a file with it is read, and its bitmap,
stored, gives a file of at least cells/127 characters, or the storing throws and leaves an empty file. -/
theorem C98_grows (p : Platform) (hp : p.maskedShift = true) (r c : Nat) (hr : r < 2 ^ 32) (hc : c < 2 ^ 32) (hr0 : 0 < r) (hc0 : 0 < c)
    (hch : p.charSigned = false ∨ (AsciiDim r ∧ AsciiDim c)) :
    ∃ h : List UInt8, h.length = 160 ∧ ∀ (fs : Fs) (na nb : List UInt8) (m0 : BitMatrix), na ≠ [] → nb ≠ [] → fs.readable na = true →
      fs.writable nb = true → fs.files na = some h → ∃ m, readFile p Alloc.ok fs na m0 = .ok true m ∧
        ((∃ text fs', encodeHash m = .ok text ∧ r * c ≤ 127 * text.length ∧ flushFile m nb text.length fs = .ok true fs' ∧ fs'.files nb = some text) ∨
          ∃ e fs', (e = .runtimeError ∨ e = .invalidArgument ∧ 2 ^ 31 ≤ r * c) ∧
            (∀ stored, flushFile m nb stored fs = .throw e fs') ∧ fs'.files nb = some []) := by
  obtain ⟨h, hl, hd⟩ := C96_read_file p hp r c hr hc hr0 hc0 hch
  refine ⟨h, hl, fun fs na nb m0 hna hnb hrd hwr hf => ?_⟩
  obtain ⟨m, e, d1, d2, -⟩ := (hd Alloc.ok fs na hna hrd hf m0).1 rfl
  refine ⟨m, e, ?_⟩
  obtain ⟨-, hb, h1, h2, -⟩ := read_shape e fun h' hf' => by rw [hf] at hf'; cases hf'; rw [hl]; norm_num
  have thr : ∀ x, encodeHash m = .throw x → ∃ fs', (∀ stored, flushFile m nb stored fs = .throw x fs') ∧ fs'.files nb = some [] := by
    intro x hx
    refine ⟨{ fs with files := fun n => if n = nb then some [] else fs.files n }, fun stored => ?_, by simp⟩
    simp only [flushFile, hnb, hwr, Bool.true_eq_false, if_false, hx]
  rcases (C30_encode_total m hb).2 h1 h2 with hx | ⟨t, ht⟩ | ⟨hbig, hx⟩
  · obtain ⟨fs', k1, k2⟩ := thr _ hx
    exact .inr ⟨_, fs', .inl rfl, k1, k2⟩
  · obtain ⟨fs', k1, k2⟩ := C33_crash_points m fs nb hnb hwr t ht t.length
    left
    refine ⟨t, fs', ht, ?_, k1, by rw [k2, List.take_length]⟩
    have := text_long m hb h1 h2 t ht
    rwa [d1, d2] at this
  · obtain ⟨fs', k1, k2⟩ := thr _ hx
    exact .inr ⟨_, fs', .inr ⟨rfl, by rw [d1, d2] at hbig; exact hbig⟩, k1, k2⟩

end Verif.Props
