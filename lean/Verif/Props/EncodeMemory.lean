import Verif.Props.LayoutMatrix
import Verif.Props.Generator
import Verif.Model.EncodeMemory

/-! Properties C77 and C78: the memory that storing a bitmap asks for, and what happens without it. -/

namespace Verif.Props
open Verif BitMatrix Base64 LayoutMatrix EncodeMemory Spec

/-- a bitmap with cells is not "empty" for `operator!` -/
theorem opNot_cells {m : BitMatrix} (hm : Built m) (h1 : 0 < m.isize) (h2 : 0 < m.jsize) : opNot m = false := by
  obtain ⟨w, _, _⟩ := hm.inv
  rw [opNot_eq w]; simp; omega

theorem notMatrix_true (m : BitMatrix) : notMatrix true m = opNot m := rfl

theorem notMatrix_false (m : BitMatrix) : notMatrix false m = true := rfl

/-- **C77** The run-length encoder first reserves as many bytes as the *square of the number of rows* (modulo 2^64), whatever the
number of columns.  If that request is refused, the encoder and `GetHash` throw; `FlushFile` throws too, and has by then emptied
the file of that name; other files are as before. -/
theorem C77_square_refused (mem : Grants) (m : BitMatrix) (hm : Built m) (h1 : 0 < m.isize) (h2 : 0 < m.jsize)
    (h : mem (m.isize * m.isize % 2 ^ 64) = false) :
    EncodeMemory.rleEncode mem true m = .throw .badAlloc ∧ EncodeMemory.getHash mem true true m = .throw .badAlloc ∧
    ∀ (fs : Fs) (name : List UInt8) (stored : Nat), name ≠ [] → fs.writable name = true →
      ∃ fs', EncodeMemory.flushFile mem true true m name stored fs = .throw .badAlloc fs' ∧ fs'.files name = some [] ∧
        ∀ n, n ≠ name → fs'.files n = fs.files n := by
  have hn := opNot_cells hm h1 h2
  have e1 : EncodeMemory.rleEncode mem true m = .throw .badAlloc := by
    simp only [EncodeMemory.rleEncode, notMatrix_true, hn, Bool.false_eq_true, if_false, EncodeMemory.reserve]
    rw [show (18446744073709551616 : Nat) = 2 ^ 64 from by norm_num, h]
    rfl
  have e2 : EncodeMemory.encodeHash mem true true m = .throw .badAlloc := by
    simp only [EncodeMemory.encodeHash, notMatrix_true, hn, Bool.false_eq_true, if_false, e1]
    rfl
  refine ⟨e1, e2, fun fs name stored hne hw => ⟨{ fs with files := fun n => if n = name then some [] else fs.files n }, ?_, ?_, ?_⟩⟩
  · simp only [EncodeMemory.flushFile, if_neg hne, hw, Bool.true_eq_false, if_false, e2]
  · simp
  · intro n hn; simp [hn]

/-- **C77** Afterwards the bitmap stored there before is lost: reading the file throws. -/
theorem C77_stored_bitmap_lost (mem : Grants) (m m0 : BitMatrix) (hm : Built m) (h1 : 0 < m.isize) (h2 : 0 < m.jsize)
    (h : mem (m.isize * m.isize % 2 ^ 64) = false) (p : Platform) (al : Alloc) (fs fs' : Fs) (name : List UInt8) (stored : Nat)
    (e : Exc) (hne : name ≠ []) (hw : fs.writable name = true) (hr : fs.readable name = true)
    (hf : EncodeMemory.flushFile mem true true m name stored fs = .throw e fs') :
    readFile p al fs' name m0 = .throw .invalidArgument m0 := by
  have hn := opNot_cells hm h1 h2
  have e1 : EncodeMemory.encodeHash mem true true m = .throw .badAlloc := (C77_square_refused mem m hm h1 h2 h).2.1
  simp only [EncodeMemory.flushFile, if_neg hne, hw, Bool.true_eq_false, if_false, e1] at hf
  cases hf
  exact (C32_read_missing p al _ name m0).2 hne hr (by simp)

/-- **C77** Strings of 2^62 characters do not exist in any implementation; so a bitmap with 2^31 to 2^32 - 1 rows can never be
turned into text, however few columns it has and however much memory there is. -/
theorem C77_too_many_rows (mem : Grants) (hmax : ∀ n, 2 ^ 62 ≤ n → mem n = false) (m : BitMatrix) (hm : Built m)
    (h1 : 2 ^ 31 ≤ m.isize) (h1' : m.isize < 2 ^ 32) (h2 : 0 < m.jsize) :
    EncodeMemory.getHash mem true true m = .throw .badAlloc := by
  refine (C77_square_refused mem m hm (by omega) h2 (hmax _ ?_)).2.1
  have a : 2 ^ 31 * 2 ^ 31 ≤ m.isize * m.isize := Nat.mul_le_mul h1 h1
  have b : m.isize * m.isize < 2 ^ 32 * 2 ^ 32 := Nat.mul_lt_mul'' h1' h1'
  rw [Nat.mod_eq_of_lt (by norm_num at b ⊢; exact b)]
  norm_num at a ⊢; exact a

/-! ### enough memory -/

theorem approx_le {n : Nat} (h : n < 2 ^ 60) : approxLength n ≤ 8 * n / 3 + 40 := by
  unfold approxLength
  rw [Nat.mod_eq_of_lt (show n * 4 < 18446744073709551616 by omega)]
  have h2 : n * 4 / 3 + 32 + n * 4 / 3 < 18446744073709551616 := by omega
  rw [Nat.mod_eq_of_lt h2]
  split <;> omega

theorem encode64_ok {mem : Grants} {L : Nat} (hL : ∀ n, n ≤ L → mem n = true) {s : List UInt8} (hs : s.length < 2 ^ 60)
    (hb : 8 * s.length / 3 + 40 ≤ L) (u : Bool) : encode64 mem s u = Base64.encode s u := by
  have h := hL _ (le_trans (approx_le hs) hb)
  simp only [encode64, Base64.encode, EncodeMemory.reserve, h, if_true]
  split <;> rfl

theorem radix_ok {mem : Grants} {L : Nat} (hL : ∀ n, n ≤ L → mem n = true) {s : List UInt8} (hs : s.length < 2 ^ 60)
    (hb : 8 * s.length / 3 + 60 ≤ L) : EncodeMemory.radix64Encode mem s = Base64.radix64Encode s := by
  have h := hL _ (le_trans (approx_le hs) (by omega))
  have h4 : ∀ n, encode64 mem (le32 n) false = Base64.encode (le32 n) false := fun n =>
    encode64_ok hL (by simp [le32]) (by simp [le32]; omega) false
  have hm : EncodeMemory.encodeWithSeparator mem s endline 76 = encodeMime s := by
    unfold EncodeMemory.encodeWithSeparator encodeMime Base64.encodeWithSeparator
    rw [encode64_ok hL hs (by omega) false]
    simp only [EncodeMemory.reserve, h, if_true]
    rfl
  simp only [EncodeMemory.radix64Encode, Base64.radix64Encode, hm, h4]

theorem reserve_cases (mem : Grants) (n : Nat) : EncodeMemory.reserve mem n = if mem n = true then .ok () else .throw .badAlloc := rfl

/-- the text of `n` characters in lines of `len` -/
theorem split_length (len : Nat) (hl : 0 < len) (v : List UInt8) (hv : v ≠ []) :
    (splitLoop endline len hl v).length = v.length + 2 * ((v.length - 1) / len) := by
  obtain ⟨full, last, h1, h2, h3, h4, h5⟩ := splitLoop_spec len hl v hv
  have a : ∀ (f : List (List UInt8)), (∀ l ∈ f, l.length = len) →
      f.flatten.length = len * f.length ∧ ((f.map (· ++ endline)).flatten).length = len * f.length + 2 * f.length := by
    intro f
    induction f with
    | nil => intro _; simp
    | cons x xs ih =>
      intro h
      obtain ⟨i1, i2⟩ := ih (fun l hl => h l (by simp [hl]))
      have hx := h x (by simp)
      have he : endline.length = 2 := rfl
      constructor
      · rw [List.flatten_cons, List.length_append, i1, hx, List.length_cons]; ring
      · rw [List.map_cons, List.flatten_cons, List.length_append, i2, List.length_append, hx, List.length_cons, he]; ring
  obtain ⟨a1, a2⟩ := a full h1
  have hvl : v.length = len * full.length + last.length := by rw [← h4, List.length_append, a1]
  rw [h5, List.length_append, a2]
  have : (v.length - 1) / len = full.length := by
    rw [hvl, Nat.add_sub_assoc h2, Nat.mul_add_div hl, Nat.div_eq_of_lt (by omega), Nat.add_zero]
  rw [this]
  omega

/-- **C77** The Base64 encoder makes one request whose size depends only on the length of the input, is at most 8/3 of it and 40 more, and
is enough for the whole text - also in lines of 64 (PEM) or 76 characters (MIME), whose line ends come on top; if it is granted the text is
that of C21, if it is refused the encoder throws. -/
theorem C77_base64_request (buf : List UInt8) (hne : buf ≠ []) (hb : buf.length < 2 ^ 60) :
    ∃ r, r ≤ 8 * buf.length / 3 + 40 ∧
      (∀ isUrl t, Base64.encode buf isUrl = .ok t → t.length ≤ r) ∧ (∀ t, encodePem buf = .ok t → t.length ≤ r) ∧
      (∀ t, encodeMime buf = .ok t → t.length ≤ r) ∧
      ∀ mem : Grants, (mem r = true → (∀ isUrl, encode64 mem buf isUrl = Base64.encode buf isUrl) ∧
          EncodeMemory.encodeWithSeparator mem buf endline 64 = encodePem buf ∧
          EncodeMemory.encodeWithSeparator mem buf endline 76 = encodeMime buf) ∧
        (mem r = false → (∀ isUrl, encode64 mem buf isUrl = .throw .badAlloc) ∧
          EncodeMemory.encodeWithSeparator mem buf endline 64 = .throw .badAlloc ∧
          EncodeMemory.encodeWithSeparator mem buf endline 76 = .throw .badAlloc) := by
  have hlen : ∀ len (hl : 0 < len), 64 ≤ len →
      (encF false buf).length + 2 * (((encF false buf).length - 1) / len) ≤ approxLength buf.length := by
    intro len hl h64
    have h := encF_length false buf
    have hd : ((encF false buf).length - 1) / len ≤ ((encF false buf).length - 1) / 64 := Nat.div_le_div_left h64 (by decide)
    unfold approxLength
    rw [Nat.mod_eq_of_lt (show buf.length * 4 < 18446744073709551616 by omega)]
    have h2 : buf.length * 4 / 3 + 32 + buf.length * 4 / 3 < 18446744073709551616 := by omega
    rw [Nat.mod_eq_of_lt h2]
    split <;> omega
  have hsep : ∀ len, 0 < len → Base64.encodeWithSeparator buf endline len =
      if h : 0 < len then .ok (splitLoop endline len h (encF false buf)) else .ub := by
    intro len hl
    unfold Base64.encodeWithSeparator
    rw [dif_neg (by simp [endline]; omega), dif_pos hl, encode_eq false hne]
    rfl
  refine ⟨approxLength buf.length, approx_le hb, ?_, ?_, ?_, fun mem => ⟨fun hm => ?_, fun hm => ?_⟩⟩
  · intro u t ht
    rw [encode_eq u hne] at ht
    cases ht
    have h1 := hlen 64 (by decide) (by decide)
    have h2 := encF_length false buf
    rw [encF_length u buf, ← h2]
    omega
  · intro t ht
    rw [encodePem, hsep 64 (by decide), dif_pos (by decide)] at ht
    cases ht
    rw [split_length 64 (by decide) _ (encF_ne_nil false hne)]
    exact hlen 64 (by decide) (by decide)
  · intro t ht
    rw [encodeMime, hsep 76 (by decide), dif_pos (by decide)] at ht
    cases ht
    rw [split_length 76 (by decide) _ (encF_ne_nil false hne)]
    exact hlen 76 (by decide) (by decide)
  · have h1 : ∀ u, encode64 mem buf u = Base64.encode buf u := by
      intro u
      simp only [encode64, Base64.encode, reserve_cases, hm, if_true]
      split <;> rfl
    refine ⟨h1, ?_, ?_⟩
    all_goals
      unfold EncodeMemory.encodeWithSeparator
      first | unfold encodePem | unfold encodeMime
      unfold Base64.encodeWithSeparator
      rw [h1]
      simp only [reserve_cases, hm, if_true]
      rfl
  · have h1 : ∀ u, encode64 mem buf u = .throw .badAlloc := by
      intro u
      simp only [encode64, if_neg hne, reserve_cases, hm, Bool.false_eq_true, if_false]
      rfl
    refine ⟨h1, ?_, ?_⟩
    all_goals
      unfold EncodeMemory.encodeWithSeparator
      rw [dif_neg (by simp [endline]), h1]
      rfl

/-- the length of the text of a bitmap -/
theorem hash_length {m : BitMatrix} (hm : Built m) (h1 : 0 < m.isize) (h2 : 0 < m.jsize)
    {h : List UInt8} (e : LayoutMatrix.encodeHash m = .ok h) : h.length ≤ 2 * (m.isize * m.jsize) + 300 := by
  obtain ⟨w, _, _⟩ := hm.inv
  obtain ⟨code, R, body, t, ec, hne, rfl, _, _, ht, hR, hbody⟩ := hash_parts hm h1 h2 e
  obtain ⟨code', ec', _, _, _, hlen⟩ := Rle.encode_eq w h1 h2
  rw [ec] at ec'
  cases ec'
  have hil : t.length = (encF false code).length + 62 := by
    simp [ht, inner, sp_length, ss_length, se_length, szText_length]
  have a1 := splitLoop_length (encF false t) (encF_ne_nil false (by simp [ht, inner]))
  have a2 := encF_length false t
  have a3 := encF_length false code
  rw [← hbody] at a1
  rw [List.length_append, List.length_append, strBegin_length, strEnd_length, hR, List.length_append, crcText_length]
  omega

/-- **C77** `ByteEncode` asks for as many bytes as the string has: refused, it throws; granted, it gives the code of C28. -/
theorem C77_byte_encode (mem : Grants) (s : List UInt8) (hs : s ≠ []) :
    (mem s.length = false → EncodeMemory.byteEncode mem s = .throw .badAlloc) ∧
    (mem s.length = true → ∃ e, EncodeMemory.byteEncode mem s = .ok e ∧ Rle.byteEncode s = .ok e ∧ Spec.expand e = Spec.msbBits s) := by
  unfold EncodeMemory.byteEncode EncodeMemory.reserve
  refine ⟨fun h => ?_, fun h => ?_⟩
  · rw [h]; rfl
  · obtain ⟨e, he, hx, _⟩ := (C28_byteEncode s).2 hs
    rw [h]
    exact ⟨e, he, he, hx⟩

/-- **C77** The text of a bitmap is never longer than two characters per cell and 300 more. -/
theorem C77_text_length (m : BitMatrix) (hm : Built m) (h1 : 0 < m.isize) (h2 : 0 < m.jsize)
    (h : List UInt8) (e : LayoutMatrix.getHash m = .ok h) : h.length ≤ 2 * (m.isize * m.jsize) + 300 :=
  hash_length hm h1 h2 e

/-- **C77** If requests of up to L bytes are granted, with L at least the square of the number of rows and at least four times
the number of cells plus 400, then `GetHash` and `FlushFile` do what C30 and C32 say. -/
theorem C77_granted (mem : Grants) (L : Nat) (hL : ∀ n, n ≤ L → mem n = true) (m : BitMatrix) (hm : Built m)
    (h3 : m.isize * m.jsize < 2 ^ 59) (hsq : m.isize * m.isize ≤ L) (hc : 4 * (m.isize * m.jsize) + 400 ≤ L) :
    EncodeMemory.getHash mem true true m = LayoutMatrix.getHash m ∧
    ∀ name stored, EncodeMemory.flushFile mem true true m name stored = LayoutMatrix.flushFile m name stored := by
  have key : EncodeMemory.encodeHash mem true true m = LayoutMatrix.encodeHash m := by
    by_cases hn : opNot m = true
    · simp only [EncodeMemory.encodeHash, LayoutMatrix.encodeHash, notMatrix_true, hn, if_true]
    · have hn : opNot m = false := by simpa using hn
      obtain ⟨w, _, _⟩ := hm.inv
      have hp : 0 < m.isize ∧ 0 < m.jsize := by
        rw [opNot_eq w] at hn; simp at hn; omega
      obtain ⟨h1, h2⟩ := hp
      obtain ⟨code, ec, hne, _⟩ := encodeHash_gen w h1 h2
      obtain ⟨code', ec', _, _, _, hlen⟩ := Rle.encode_eq w h1 h2
      rw [ec] at ec'
      cases ec'
      have hrle : EncodeMemory.rleEncode mem true m = .ok code := by
        have := hL _ (le_trans (Nat.mod_le (m.isize * m.isize) 18446744073709551616) hsq)
        simp only [EncodeMemory.rleEncode, notMatrix_true, hn, Bool.false_eq_true, if_false, EncodeMemory.reserve, this, if_true, ec]
        rfl
      have hsz : EncodeMemory.encodeSz mem (UInt32.ofNat m.isize) (UInt32.ofNat m.jsize) =
          LayoutMatrix.encodeSz (UInt32.ofNat m.isize) (UInt32.ofNat m.jsize) := by
        unfold EncodeMemory.encodeSz LayoutMatrix.encodeSz
        refine encode64_ok hL ?_ ?_ false
        · rw [sizeBytes_length]; norm_num
        · rw [sizeBytes_length]; omega
      have hil : (inner (encF false code) (encF false (szBytes (m.isize % 2 ^ 32) (m.jsize % 2 ^ 32))) 3).length = (encF false code).length + 62 := by
        simp [inner, sp_length, ss_length, se_length, szText_length]
      have a3 := encF_length false code
      have hcode : encode64 mem code false = .ok (encF false code) := by
        rw [encode64_ok hL (by omega) (by omega) false]; exact encode_eq false hne
      have hrad : EncodeMemory.radix64Encode mem (inner (encF false code) (encF false (szBytes (m.isize % 2 ^ 32) (m.jsize % 2 ^ 32))) 3) =
          base64Encode (inner (encF false code) (encF false (szBytes (m.isize % 2 ^ 32) (m.jsize % 2 ^ 32))) 3) .radix64 :=
        radix_ok hL (by omega) (by omega)
      have hE : EncodeMemory.encodeHash mem true true m = (do
          let r ← base64Encode (inner (encF false code) (encF false (szBytes (m.isize % 2 ^ 32) (m.jsize % 2 ^ 32))) 3) .radix64
          EncodeMemory.reserve mem (LayoutMatrix.strBegin.length + r.length + LayoutMatrix.strEnd.length)
          .ok (LayoutMatrix.strBegin ++ r ++ LayoutMatrix.strEnd)) := by
        simp only [EncodeMemory.encodeHash, notMatrix_true, hn, Bool.false_eq_true, if_false, hrle, Res.ok_bind, hcode, hsz]
        rw [encodeSz_mod, Res.ok_bind, encodeEncodings_eq, Res.ok_bind, Res.ok_bind]
        exact congrArg (fun z => z >>= fun r => (do
          EncodeMemory.reserve mem (LayoutMatrix.strBegin.length + r.length + LayoutMatrix.strEnd.length)
          .ok (LayoutMatrix.strBegin ++ r ++ LayoutMatrix.strEnd))) hrad
      have hE' : LayoutMatrix.encodeHash m = (do
          let r ← base64Encode (inner (encF false code) (encF false (szBytes (m.isize % 2 ^ 32) (m.jsize % 2 ^ 32))) 3) .radix64
          .ok (LayoutMatrix.strBegin ++ r ++ LayoutMatrix.strEnd)) := by
        simp only [LayoutMatrix.encodeHash, hn, Bool.false_eq_true, if_false, ec, Res.ok_bind]
        rw [show base64Encode code .standard = .ok (encF false code) from encode_eq false hne, Res.ok_bind,
          encodeSz_mod, Res.ok_bind, encodeEncodings_eq, Res.ok_bind]
        rfl
      rw [hE]
      cases hb : base64Encode (inner (encF false code) (encF false (szBytes (m.isize % 2 ^ 32) (m.jsize % 2 ^ 32))) 3) .radix64 with
      | ub => rw [hE', hb]; rfl
      | throw e => rw [hE', hb]; rfl
      | ok R =>
        have he : LayoutMatrix.encodeHash m = .ok (strBegin ++ R ++ strEnd) := by rw [hE', hb]; rfl
        have hl := hash_length hm h1 h2 he
        rw [List.length_append, List.length_append] at hl
        rw [he]
        have := hL (LayoutMatrix.strBegin.length + R.length + LayoutMatrix.strEnd.length) (by omega)
        simp only [Res.ok_bind, EncodeMemory.reserve, this, if_true]
  refine ⟨key, fun name stored => ?_⟩
  funext fs
  simp only [EncodeMemory.flushFile, LayoutMatrix.flushFile, key]
  rfl

/-- **C77** The request is out of proportion: whatever limit L ≥ 400 on requests, there is a bitmap of a single column whose text would need at
most L characters when all requests were granted, but for which `GetHash` throws. -/
theorem C77_out_of_proportion (L : Nat) (hL : 400 ≤ L) (hL2 : L < 2 ^ 60) :
    ∃ m, Built m ∧ m.jsize = 1 ∧ m.isize ≤ L ∧ (∀ h, LayoutMatrix.getHash m = .ok h → h.length ≤ L) ∧
      EncodeMemory.getHash (fun n => decide (n ≤ L)) true true m = .throw .badAlloc := by
  have hs1 : L < (Nat.sqrt L + 1) * (Nat.sqrt L + 1) := Nat.lt_succ_sqrt L
  have hs2 : Nat.sqrt L * Nat.sqrt L ≤ L := Nat.sqrt_le L
  have hs3 : Nat.sqrt L < 2 ^ 30 := by
    rw [Nat.sqrt_lt]; omega
  have hs4 : 20 ≤ Nat.sqrt L := by
    rw [Nat.le_sqrt]; omega
  have hb : Built (Generator.blank (Nat.sqrt L + 1) 1) := built_blank (by omega) (by omega)
  have hq : 2 * ((Nat.sqrt L + 1) * 1) + 300 ≤ L := by nlinarith
  refine ⟨Generator.blank (Nat.sqrt L + 1) 1, hb, rfl, show Nat.sqrt L + 1 ≤ L by omega, fun h e => ?_, ?_⟩
  · exact le_trans (hash_length hb (show 0 < Nat.sqrt L + 1 by omega) (show 0 < 1 by omega) e) hq
  · refine (C77_square_refused _ _ hb (show 0 < Nat.sqrt L + 1 by omega) (show 0 < 1 by omega) ?_).2.1
    show decide ((Nat.sqrt L + 1) * (Nat.sqrt L + 1) % 2 ^ 64 ≤ L) = false
    rw [Nat.mod_eq_of_lt (by nlinarith)]
    simpa using hs1

/-- C77 at work: with 16 GB, a bitmap of 200000 rows and one column (200000 bytes) cannot be stored -/
example : EncodeMemory.getHash (fun n => decide (n ≤ 2 ^ 34)) true true (Generator.blank 200000 1) = .throw .badAlloc :=
  (C77_square_refused _ _ (built_blank (by decide) (by decide)) (by decide) (by decide) (by decide)).2.1

/-- but one of 100000 rows can, as C30 says -/
example : EncodeMemory.getHash (fun n => decide (n ≤ 2 ^ 34)) true true (Generator.blank 100000 1) = LayoutMatrix.getHash (Generator.blank 100000 1) :=
  (C77_granted _ (2 ^ 34) (fun n h => by simpa using h) _ (built_blank (by decide) (by decide)) (by decide) (by decide) (by decide)).1

/-- a stored bitmap and a failed attempt to replace it -/
example : ∃ fs fs' : Fs, fs.files [65] = some (lit "x") ∧
    EncodeMemory.flushFile (fun n => decide (n ≤ 2 ^ 34)) true true (Generator.blank 200000 1) [65] 1000000 fs = .throw .badAlloc fs' ∧ fs'.files [65] = some [] := by
  let fs : Fs := ⟨fun n => if n = [65] then some (lit "x") else none, fun _ => true, fun _ => true⟩
  obtain ⟨fs', h1, h2, _⟩ := (C77_square_refused (fun n => decide (n ≤ 2 ^ 34)) (Generator.blank 200000 1) (built_blank (by decide) (by decide))
    (by decide) (by decide) (by decide)).2.2 fs [65] 1000000 (by decide) rfl
  exact ⟨fs, fs', rfl, h1, h2⟩

/-! ### C78: without the memory -/

/-- **C78** `!` on a `LayoutMatrix` copies it first: it is true for an empty bitmap and for *every* bitmap when the memory for the
copy is not there. -/
theorem C78_not (copied : Bool) (m : BitMatrix) : notMatrix copied m = true ↔ copied = false ∨ opNot m = true := by
  cases copied
  · simp [notMatrix_false]
  · simp [notMatrix_true]

theorem encode64_either (mem : Grants) (s : List UInt8) (u : Bool) :
    encode64 mem s u = .throw .badAlloc ∨ encode64 mem s u = Base64.encode s u := by
  unfold encode64 Base64.encode EncodeMemory.reserve
  split
  · exact .inr rfl
  · split
    · exact .inr rfl
    · exact .inl rfl

theorem separator_either (mem : Grants) (s sep : List UInt8) (len : Nat) :
    EncodeMemory.encodeWithSeparator mem s sep len = .throw .badAlloc ∨
      EncodeMemory.encodeWithSeparator mem s sep len = Base64.encodeWithSeparator s sep len := by
  unfold EncodeMemory.encodeWithSeparator Base64.encodeWithSeparator
  split
  · exact .inr rfl
  · rcases encode64_either mem s false with h | h
    · rw [h]; exact .inl rfl
    · rw [h]
      cases Base64.encode s false with
      | ub => exact .inr rfl
      | throw e => exact .inr rfl
      | ok e =>
        simp only [Res.ok_bind, EncodeMemory.reserve]
        split
        · exact .inr rfl
        · exact .inl rfl

theorem radix_either (mem : Grants) (s : List UInt8) :
    EncodeMemory.radix64Encode mem s = .throw .badAlloc ∨ EncodeMemory.radix64Encode mem s = Base64.radix64Encode s := by
  unfold EncodeMemory.radix64Encode Base64.radix64Encode
  split
  · exact .inr rfl
  · rcases separator_either mem s endline 76 with h | h
    · rw [h]; exact .inl rfl
    · rw [h, show Base64.encodeWithSeparator s endline 76 = encodeMime s from rfl]
      cases encodeMime s with
      | ub => exact .inr rfl
      | throw e => exact .inr rfl
      | ok e =>
        simp only [Res.ok_bind]
        cases Crc32.calcHash (some e) (e.length % 2 ^ 32) with
        | ub => exact .inr rfl
        | throw e => exact .inr rfl
        | ok hash =>
          simp only [Res.ok_bind]
          split
          · exact .inr rfl
          · rcases encode64_either mem (le32 hash) false with h4 | h4
            · rw [h4]; exact .inl rfl
            · rw [h4]; exact .inr rfl

/-- **C78** Whatever requests and copies fail, `GetHash` never returns a wrong text: it does what it does with enough memory, or it
throws (`std::bad_alloc`, or `std::invalid_argument` when a copy failed). -/
theorem C78_text_never_wrong (mem : Grants) (copied copied2 : Bool) (m : BitMatrix) :
    EncodeMemory.getHash mem copied copied2 m = LayoutMatrix.getHash m ∨
    EncodeMemory.getHash mem copied copied2 m = .throw .badAlloc ∨
    ((copied = false ∨ copied2 = false) ∧ EncodeMemory.getHash mem copied copied2 m = .throw .invalidArgument) := by
  unfold EncodeMemory.getHash LayoutMatrix.getHash
  cases copied with
  | false => exact .inr (.inr ⟨.inl rfl, by simp only [EncodeMemory.encodeHash, notMatrix_false, if_true]⟩)
  | true =>
    by_cases hn : opNot m = true
    · refine .inl ?_
      simp only [EncodeMemory.encodeHash, LayoutMatrix.encodeHash, notMatrix_true, hn, if_true]
    have hn : opNot m = false := by simpa using hn
    cases copied2 with
    | false =>
      refine .inr (.inr ⟨.inr rfl, ?_⟩)
      simp only [EncodeMemory.encodeHash, notMatrix_true, hn, Bool.false_eq_true, if_false, EncodeMemory.rleEncode, notMatrix_false,
        if_true, Res.ok_bind, encode64]
      rfl
    | true =>
      simp only [EncodeMemory.encodeHash, LayoutMatrix.encodeHash, notMatrix_true, hn, Bool.false_eq_true, if_false,
        EncodeMemory.rleEncode, EncodeMemory.reserve]
      by_cases hq : mem (m.isize * m.isize % 18446744073709551616) = true
      swap
      · rw [if_neg hq]; exact .inr (.inl rfl)
      rw [if_pos hq, Res.ok_bind]
      cases Rle.encode m with
      | ub => exact .inl rfl
      | throw e => exact .inl rfl
      | ok code =>
        simp only [Res.ok_bind, base64Encode]
        rcases encode64_either mem code false with h | h
        · rw [h]; exact .inr (.inl rfl)
        rw [h]
        cases Base64.encode code false with
        | ub => exact .inl rfl
        | throw e => exact .inl rfl
        | ok r =>
          simp only [Res.ok_bind, EncodeMemory.encodeSz, LayoutMatrix.encodeSz, base64Encode]
          rcases encode64_either mem (List.replicate 8 0 ++ le64 ((UInt32.ofNat m.jsize).toNat ||| (UInt32.ofNat m.isize).toNat * 2 ^ 32)) false with h | h
          · rw [h]; exact .inr (.inl rfl)
          rw [h]
          cases Base64.encode (List.replicate 8 0 ++ le64 ((UInt32.ofNat m.jsize).toNat ||| (UInt32.ofNat m.isize).toNat * 2 ^ 32)) false with
          | ub => exact .inl rfl
          | throw e => exact .inl rfl
          | ok sz =>
            rw [encodeEncodings_eq]
            simp only [Res.ok_bind]
            rcases radix_either mem (r ++ sectionParameters ++ sectionSize ++ sz ++ sectionEncodeType ++ [3]) with h | h
            · rw [h]; exact .inr (.inl rfl)
            rw [h]
            cases Base64.radix64Encode (r ++ sectionParameters ++ sectionSize ++ sz ++ sectionEncodeType ++ [3]) with
            | ub => exact .inl rfl
            | throw e => exact .inl rfl
            | ok r2 =>
              simp only [Res.ok_bind]
              split
              · exact .inl rfl
              · exact .inr (.inl rfl)

/-- **C78** Nor does `FlushFile` store a wrong text: if it returns, it returns what it does with enough memory and has done the
same; if it throws, the file is empty and the other files are as before. -/
theorem C78_file_never_wrong (mem : Grants) (copied copied2 : Bool) (m : BitMatrix) (name : List UInt8) (stored : Nat) (fs : Fs) :
    (∀ b fs', EncodeMemory.flushFile mem copied copied2 m name stored fs = .ok b fs' → LayoutMatrix.flushFile m name stored fs = .ok b fs') ∧
    (∀ e fs', EncodeMemory.flushFile mem copied copied2 m name stored fs = .throw e fs' →
      fs'.files name = some [] ∧ ∀ n, n ≠ name → fs'.files n = fs.files n) ∧
    (EncodeMemory.flushFile mem copied copied2 m name stored fs = .ub → LayoutMatrix.flushFile m name stored fs = .ub) := by
  unfold EncodeMemory.flushFile LayoutMatrix.flushFile
  by_cases h1 : name = []
  · simp only [h1, if_true]
    exact ⟨fun _ _ h => h, fun _ _ h => (nomatch h), fun h => (nomatch h)⟩
  by_cases h2 : fs.writable name = false
  · simp only [h1, h2, if_true, if_false]
    exact ⟨fun _ _ h => h, fun _ _ h => (nomatch h), fun h => (nomatch h)⟩
  simp only [h1, h2, if_false]
  have key := C78_text_never_wrong mem copied copied2 m
  unfold EncodeMemory.getHash LayoutMatrix.getHash at key
  cases he : EncodeMemory.encodeHash mem copied copied2 m with
  | ub =>
    rw [he] at key
    rcases key with k | k | ⟨_, k⟩
    · rw [← k]
      exact ⟨fun _ _ h => (nomatch h), fun _ _ h => (nomatch h), fun _ => rfl⟩
    · cases k
    · cases k
  | throw e =>
    refine ⟨fun _ _ h => (nomatch h), fun _ _ h => ?_, fun h => (nomatch h)⟩
    cases h
    exact ⟨by simp, fun n hn => by simp [hn]⟩
  | ok t =>
    rw [he] at key
    rcases key with k | k | ⟨_, k⟩
    · rw [← k]
      exact ⟨fun _ _ h => h, fun _ _ h => (nomatch h), fun h => (nomatch h)⟩
    · cases k
    · cases k

/-- **C78** `ReadFile` without the memory for the copy refuses every file, good ones included, and leaves the object alone; with it,
it does what C32 says. -/
theorem C78_read (p : Platform) (al : Alloc) (fs : Fs) (name : List UInt8) (m : BitMatrix) :
    EncodeMemory.readFile p al true fs name m = LayoutMatrix.readFile p al fs name m ∧
    (∀ b m', EncodeMemory.readFile p al false fs name m = .ok b m' → b = false ∧ m' = m) ∧
    (∀ m', LayoutMatrix.readFile p al fs name m = .ok true m' → EncodeMemory.readFile p al false fs name m = .ok false m) := by
  unfold EncodeMemory.readFile LayoutMatrix.readFile
  refine ⟨rfl, fun b m' h => ?_, fun m' h => ?_⟩
  · split at h
    · cases h; exact ⟨rfl, rfl⟩
    split at h
    · cases h; exact ⟨rfl, rfl⟩
    split at h
    · cases h; exact ⟨rfl, rfl⟩
    · split at h
      · cases h
      · cases h
      · simp only [notMatrix_false, if_true] at h
        cases h; exact ⟨rfl, rfl⟩
  · by_cases h1 : name = []
    · simp only [h1, if_true] at h; cases h
    by_cases h2 : fs.readable name = false
    · simp only [h1, h2, if_true, if_false] at h; cases h
    simp only [h1, h2, if_false] at h ⊢
    cases hf : fs.files name with
    | none => rw [hf] at h; cases h
    | some c =>
      rw [hf] at h
      simp only at h ⊢
      cases hd : LayoutMatrix.decodeHash p al c with
      | ub => rw [hd] at h; cases h
      | throw e => rw [hd] at h; cases h
      | ok d =>
        simp only [notMatrix_false, if_true]
        split <;> rfl

/-- **C78** `Rle::Encode` itself does not report the failure: without the memory for the copy it returns the empty string for every
bitmap, and the compression coefficient of a bitmap with cells is then infinite. -/
theorem C78_rle_silent (mem : Grants) (m : BitMatrix) :
    EncodeMemory.rleEncode mem false m = .ok [] ∧
    (Built m → 0 < m.isize → 0 < m.jsize →
      EncodeMemory.coeffMatrix Ieee.rne mem true false m = .ok .inf) := by
  have h0 : EncodeMemory.rleEncode mem false m = .ok [] := by
    simp only [EncodeMemory.rleEncode, notMatrix_false, if_true]
  refine ⟨h0, fun hm h1 h2 => ?_⟩
  obtain ⟨w, _, _⟩ := hm.inv
  have hn := opNot_cells hm h1 h2
  obtain ⟨p, ep, hp, _⟩ := serialize_eq w h1 h2
  have hlen : (8 :: le64 m.isize ++ 8 :: le64 m.jsize ++ p : List UInt8).length = 18 + m.isize * m.jsize / 8 := by
    simp [le64_length, hp]; omega
  simp only [EncodeMemory.coeffMatrix, notMatrix_true, hn, Bool.false_eq_true, if_false, ep, h0, Res.ok_bind, Res.pure_eq, hlen]
  have r2 := Ieee.rne_rounding.nat ([] : List UInt8).length (by simp)
  have r1 := Ieee.rne_rounding.mono ((1 : ℕ) : ℚ) ((18 + m.isize * m.jsize / 8 : ℕ) : ℚ) (by exact_mod_cast (by omega))
  rw [Ieee.rne_rounding.nat 1 (by norm_num)] at r1
  rw [r2]
  have : Ieee.rne (((18 + m.isize * m.jsize / 8 : ℕ) : ℚ)) ≠ 0 := by
    intro h
    rw [h] at r1
    norm_num at r1
  simp only [Dbl.div, List.length_nil, Nat.cast_zero, if_true, if_neg this]

/-- C78 at work: a 3 × 3 bitmap has a text; without memory for the second copy `GetHash` throws, and a file with that text is
refused when the copy in `ReadFile` fails -/
example : ∃ h m', LayoutMatrix.getHash (Generator.blank 3 3) = .ok h ∧
    EncodeMemory.getHash (fun _ => true) true true (Generator.blank 3 3) = .ok h ∧
    EncodeMemory.getHash (fun _ => true) true false (Generator.blank 3 3) = .throw .invalidArgument ∧
    LayoutMatrix.readFile ⟨false, true⟩ Alloc.ok ⟨fun _ => some h, fun _ => true, fun _ => true⟩ [65] BitMatrix.empty = .ok true m' ∧
    EncodeMemory.readFile ⟨false, true⟩ Alloc.ok false ⟨fun _ => some h, fun _ => true, fun _ => true⟩ [65] BitMatrix.empty =
      .ok false BitMatrix.empty := by
  have hb : Built (Generator.blank 3 3) := built_blank (by decide) (by decide)
  have hok : ∃ h, LayoutMatrix.encodeHash (Generator.blank 3 3) = .ok h := by
    have : (match LayoutMatrix.encodeHash (Generator.blank 3 3) with | .ok _ => true | _ => false) = true := by decide +kernel
    split at this
    · rename_i h e; exact ⟨h, e⟩
    · cases this
  obtain ⟨h, e⟩ := hok
  obtain ⟨m', e', _⟩ := C30_roundtrip ⟨false, true⟩ rfl _ hb (by decide) (by decide) (by decide) (by decide) (.inl rfl) h e
  have e0 : opNot m' = false := by
    have : decodeHash ⟨false, true⟩ Alloc.ok h = .ok m' := e'
    have hd : (match LayoutMatrix.encodeHash (Generator.blank 3 3) with
        | .ok h => (match decodeHash ⟨false, true⟩ Alloc.ok h with | .ok d => !opNot d | _ => false)
        | _ => false) = true := by decide +kernel
    rw [e] at hd
    simp only [this] at hd
    simpa using hd
  have hr : LayoutMatrix.readFile ⟨false, true⟩ Alloc.ok ⟨fun _ => some h, fun _ => true, fun _ => true⟩ [65] BitMatrix.empty =
      .ok true (assignMoveL BitMatrix.empty m').1 := by
    unfold LayoutMatrix.readFile
    simp [e', e0]
  refine ⟨h, _, e, ?_, ?_, hr, (C78_read _ _ _ _ _).2.2 _ hr⟩
  · rw [(C77_granted (fun _ => true) 1000 (fun _ _ => rfl) _ hb (by decide) (by decide) (by decide)).1]; exact e
  · decide +kernel

/-- C77_base64_request at work on any 3000 bytes. -/
example (buf : List UInt8) (h : buf.length = 3000) : ∃ r, r ≤ 8040 ∧ ∀ mem : Grants, mem r = false →
    EncodeMemory.encodeWithSeparator mem buf endline 76 = .throw .badAlloc := by
  obtain ⟨r, h1, _, _, _, h2⟩ := C77_base64_request buf (fun e => by rw [e] at h; cases h) (by rw [h]; norm_num)
  rw [h] at h1
  exact ⟨r, h1, fun mem hm => ((h2 mem).2 hm).2.2⟩

end Verif.Props
