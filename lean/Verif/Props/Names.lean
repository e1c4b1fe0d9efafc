import Verif.Spec.Names
import Verif.Props.Msk

/-! C84: file names that are not plain ASCII. -/

namespace Verif.Props
open Verif Msk Spec.Msk Spec.Names

theorem utf8_eq (s : String) : utf8 s = s.toList.flatMap String.utf8EncodeChar := by
  unfold utf8
  rw [← String.utf8Encode_toList]
  unfold List.utf8Encode
  simp

/-- **C84** Two texts never have the same UTF-8 form. -/
theorem utf8_inj {s t : String} (h : utf8 s = utf8 t) : s = t := by
  unfold utf8 at h
  apply String.toByteArray_inj.mp
  apply ByteArray.ext
  exact Array.toList_inj.mp h

theorem narrow_length (s : List Nat) : (narrow s).length = s.length := List.length_map _

theorem encode_ascii {c : Char} (h : c.toNat < 128) : String.utf8EncodeChar c = [UInt8.ofNat c.toNat] := by
  unfold String.utf8EncodeChar
  have : c.val.toNat ≤ 127 := by
    have : c.toNat = c.val.toNat := rfl
    omega
  simp only [this, if_true]
  rfl

theorem encode_longer (c : Char) : 1 ≤ (String.utf8EncodeChar c).length ∧ (128 ≤ c.toNat → 2 ≤ (String.utf8EncodeChar c).length) := by
  rw [String.length_utf8EncodeChar]
  constructor
  · exact Char.utf8Size_pos c
  · intro h
    by_contra hc
    have h1 : c.utf8Size = 1 := by have := Char.utf8Size_pos c; omega
    rw [Char.utf8Size_eq_one_iff] at h1
    have : c.toNat = c.val.toNat := rfl
    have h2 : c.val.toNat ≤ 127 := h1
    omega

theorem flat_length (l : List Char) : l.length ≤ (l.flatMap String.utf8EncodeChar).length ∧
    ((∃ c ∈ l, 128 ≤ c.toNat) → l.length < (l.flatMap String.utf8EncodeChar).length) := by
  induction l with
  | nil => simp
  | cons c l ih =>
    obtain ⟨h1, h2⟩ := encode_longer c
    rw [List.flatMap_cons, List.length_append, List.length_cons]
    refine ⟨by omega, ?_⟩
    rintro ⟨x, hx, hb⟩
    rcases List.mem_cons.mp hx with rfl | hx
    · have := h2 hb; omega
    · have := ih.2 ⟨x, hx, hb⟩; omega

/-- **C84** The name under which the reader looks for a file is the file's UTF-8 name exactly if the name is plain ASCII. -/
theorem C84_ascii (s : String) : narrow (wide s) = utf8 s ↔ Ascii s := by
  rw [utf8_eq]
  constructor
  · intro h c hc
    by_contra hb
    have h1 := (flat_length s.toList).2 ⟨c, hc, by omega⟩
    rw [← h, narrow_length] at h1
    unfold wide at h1
    rw [List.length_map] at h1
    omega
  · intro h
    unfold wide narrow Ascii at *
    generalize s.toList = l at h
    induction l with
    | nil => rfl
    | cons c l ih =>
      rw [List.map_cons, List.map_cons, List.flatMap_cons, encode_ascii (h c (by simp)), ih fun x hx => h x (by simp [hx])]
      rfl

/-- **C84** A file stored under a name with a character beyond ASCII is not found: if it is the only file, `GetReader` gives no reader for its
name. -/
theorem C84_not_found (env : Env) (s : String) (hn : ¬ Ascii s) (only : ∀ b c, env.fs b = some c → b = utf8 s) :
    getReader env (wide s) = none := by
  cases h : getReader env (wide s) with
  | none => rfl
  | some r =>
    obtain ⟨⟨_, content, hf, _⟩, _⟩ := (C50_get_reader env (wide s) r).mp h
    exact absurd ((C84_ascii s).mp (only _ _ hf)) hn

/-- **C84** Plain ASCII names: a reader is given exactly for the names `….msk` of files whose text begins with `VERSION`. -/
theorem C84_found (env : Env) (s : String) (hn : Ascii s) :
    (∃ r, getReader env (wide s) = some r) ↔
      MskName (utf8 s) ∧ ∃ content, env.fs (utf8 s) = some content ∧ bytes "VERSION" <+: content := by
  have e := (C84_ascii s).mpr hn
  constructor
  · rintro ⟨r, h⟩
    have := ((C50_get_reader env (wide s) r).mp h).1
    rwa [e] at this
  · intro h
    exact ⟨_, (C50_get_reader env (wide s) _).mpr ⟨by rwa [e], rfl⟩⟩

theorem latin1_wide (b : List UInt8) : narrow (wide (latin1 b)) = b := by
  unfold latin1 wide narrow
  rw [String.toList_ofList, List.map_map, List.map_map]
  conv_rhs => rw [← List.map_id b]
  apply List.map_congr_left
  intro x _
  have hx : x.toNat < 256 := x.toNat_lt
  have : (Char.ofNat x.toNat).toNat = x.toNat := by
    unfold Char.ofNat
    rw [dif_pos (show Nat.isValidChar x.toNat from Or.inl (by omega))]
    rfl
  simp only [Function.comp_apply, this, id]
  exact UInt8.ofNat_toNat

/-- **C84** It is found under another name: the one whose characters are the bytes of its UTF-8 name (and that name has more characters). -/
theorem C84_mojibake (env : Env) (t : String) :
    (∃ r, getReader env (wide (latin1 (utf8 t))) = some r) ↔
      MskName (utf8 t) ∧ ∃ content, env.fs (utf8 t) = some content ∧ bytes "VERSION" <+: content := by
  have e := latin1_wide (utf8 t)
  constructor
  · rintro ⟨r, h⟩
    have := ((C50_get_reader env _ r).mp h).1
    rwa [e] at this
  · intro h
    exact ⟨_, (C50_get_reader env _ _).mpr ⟨by rwa [e], rfl⟩⟩

theorem wide_append (s t : String) : wide (s ++ t) = wide s ++ wide t := by
  unfold wide
  rw [String.toList_append, List.map_append]

/-- **C84** What the reader calls the element and the library: the UTF-8 form of the part of the name between the last `/` and the last `.`,
and of the whole name, whatever characters they are made of. -/
theorem C84_names (env : Env) (hc : Converts env) (dir base ext : String) (hd : dir = "" ∨ ∃ d, dir = d ++ "/")
    (hb : '/' ∉ base.toList) (he : '.' ∉ ext.toList ∧ '/' ∉ ext.toList) (hl : (dir ++ base ++ "." ++ ext).length < 2 ^ 64)
    (r : Reader) (h : getReader env (wide (dir ++ base ++ "." ++ ext)) = some r) :
    ∃ content, env.fs (narrow (wide (dir ++ base ++ "." ++ ext))) = some content ∧
      ∀ data heap, Ready42 env ⟨r, data, heap⟩ content (utf8 base) (utf8 (dir ++ base ++ "." ++ ext)) := by
  have hmem : ∀ (c : Char) (s : String), c ∉ s.toList → c.toNat ∉ wide s := by
    intro c s h1 h2
    obtain ⟨x, hx, e⟩ := List.mem_map.mp h2
    exact h1 (Char.toNat_inj.mp e ▸ hx)
  have e : wide (dir ++ base ++ "." ++ ext) = wide dir ++ wide base ++ 46 :: wide ext := by
    rw [wide_append, wide_append, wide_append, List.append_assoc (wide dir ++ wide base)]
    rfl
  have hlen : (wide dir ++ wide base ++ 46 :: wide ext).length < 2 ^ 64 := by
    rw [← e]
    unfold wide
    rwa [List.length_map, String.length_toList]
  have hdir : wide dir = [] ∨ ∃ d, wide dir = d ++ [47] := by
    rcases hd with rfl | ⟨d, rfl⟩
    · exact Or.inl rfl
    · exact Or.inr ⟨wide d, wide_append d "/"⟩
  have key := C50_element_name (wide dir) (wide base) (wide ext) hdir (hmem '/' base hb) ⟨hmem '.' ext he.1, hmem '/' ext he.2⟩ hlen
  exact C50_reader_ready env _ r h _ _ (by rw [e, key]; exact hc base) (hc _)

theorem elem_text (s : String) : ∃ u, elemName (wide s) = wide u := by
  have key : ∀ p n, ∃ u, substr (wide s) p n = wide u := by
    intro p n
    refine ⟨String.ofList ((s.toList.drop p).take n), ?_⟩
    unfold substr wide
    rw [String.toList_ofList, List.map_take, List.map_drop]
  unfold elemName
  dsimp only
  split
  · exact key _ _
  · exact key _ _

theorem narrow_mod (s t : String) (h : s.toList.map (fun c => c.toNat % 256) = t.toList.map (fun c => c.toNat % 256)) :
    narrow (wide s) = narrow (wide t) := by
  unfold narrow wide
  have key : ∀ l : List Char, (l.map Char.toNat).map UInt8.ofNat = (l.map fun c => c.toNat % 256).map UInt8.ofNat := by
    intro l
    rw [List.map_map, List.map_map]
    apply List.map_congr_left
    intro c _
    apply UInt8.toNat_inj.mp
    simp
  rw [key, key, h]

/-- **C84** Names whose characters agree modulo 256 mean the same file: if one gets a reader so does the other, and the two readers stand before
the same content; the libraries they will make are named differently all the same. -/
theorem C84_same_file (env : Env) (hc : Converts env) (s t : String)
    (h : s.toList.map (fun c => c.toNat % 256) = t.toList.map (fun c => c.toNat % 256)) (hne : s ≠ t) (r : Reader)
    (hr : getReader env (wide s) = some r) :
    ∃ r' content ename ename', getReader env (wide t) = some r' ∧ utf8 s ≠ utf8 t ∧
      ∀ data heap, Ready42 env ⟨r, data, heap⟩ content ename (utf8 s) ∧ Ready42 env ⟨r', data, heap⟩ content ename' (utf8 t) := by
  have e := narrow_mod s t h
  have h1 := ((C50_get_reader env (wide s) r).mp hr).1
  rw [e] at h1
  have hr' := (C50_get_reader env (wide t) _).mpr ⟨h1, rfl⟩
  obtain ⟨u, hu⟩ := elem_text s
  obtain ⟨v, hv⟩ := elem_text t
  obtain ⟨c, hf, hR⟩ := C50_reader_ready env _ r hr (utf8 u) (utf8 s) (by rw [hu]; exact hc u) (hc s)
  obtain ⟨c', hf', hR'⟩ := C50_reader_ready env _ _ hr' (utf8 v) (utf8 t) (by rw [hv]; exact hc v) (hc t)
  rw [e, hf'] at hf
  cases Option.some.inj hf
  exact ⟨_, c, utf8 u, utf8 v, hr', fun k => hne (utf8_inj k), fun data heap => ⟨hR data heap, hR' data heap⟩⟩

/-! The hypotheses are met: a disk with one file, `éx.msk`; another with `x.msk` only. -/

/-- the conversion as its name says: the wide string is a text, or there is no result -/
noncomputable def conv (w : List Nat) : Option (List UInt8) := by
  classical exact if h : ∃ s, wide s = w then some (utf8 h.choose) else none

theorem wide_inj {s t : String} (h : wide s = wide t) : s = t := by
  apply String.toList_inj.mp
  exact List.map_injective_iff.mpr (fun a b => Char.toNat_inj.mp) h

theorem conv_wide (s : String) : conv (wide s) = some (utf8 s) := by
  unfold conv
  have h : ∃ u, wide u = wide s := ⟨s, rfl⟩
  rw [dif_pos h, wide_inj h.choose_spec]

/-- a disk with one file -/
noncomputable def disk (name : String) : Env where
  fs := fun b => if b = utf8 name then some (bytes "VERSION\n") else none
  utf8 := conv

example : ¬ Ascii "éx.msk" ∧ (∀ b c, (disk "éx.msk").fs b = some c → b = utf8 "éx.msk") ∧ Converts (disk "éx.msk") := by
  refine ⟨fun h => absurd (h 'é' (by decide +kernel)) (by decide +kernel), ?_, fun s => conv_wide s⟩
  intro b c h
  by_contra hb
  have : (disk "éx.msk").fs b = none := if_neg hb
  rw [this] at h
  cases h

example : getReader (disk "éx.msk") (wide "éx.msk") = none := by
  refine C84_not_found _ "éx.msk" (fun h => absurd (h 'é' (by decide +kernel)) (by decide +kernel)) ?_
  intro b c h
  by_contra hb
  have : (disk "éx.msk").fs b = none := if_neg hb
  rw [this] at h
  cases h

/-- a file with a name beyond ASCII is found as `Ã©x.msk` -/
example : latin1 (utf8 "éx.msk") = "Ã©x.msk" := by decide +kernel

example : ∃ r, getReader (disk "éx.msk") (wide "Ã©x.msk") = some r := by
  have e : "Ã©x.msk" = latin1 (utf8 "éx.msk") := by decide +kernel
  rw [e, C84_mojibake]
  refine ⟨⟨utf8 "é", 120, 109, 115, 107, by decide +kernel, by unfold WordChar; decide, by decide, by decide, by decide⟩,
    bytes "VERSION\n", ?_, by decide +kernel⟩
  unfold disk
  dsimp only
  rw [if_pos rfl]

theorem disk_found : ∃ r, getReader (disk "d/x.msk") (wide "d/x.msk") = some r := by
  rw [C84_found _ _ (by unfold Ascii; decide +kernel)]
  refine ⟨⟨bytes "d/", 120, 109, 115, 107, by decide +kernel, by unfold WordChar; decide, by decide, by decide, by decide⟩,
    bytes "VERSION\n", ?_, by decide +kernel⟩
  unfold disk
  dsimp only
  rw [if_pos rfl]

example : ∃ r content, getReader (disk "d/x.msk") (wide "d/x.msk") = some r ∧
    ∀ data heap, Ready42 (disk "d/x.msk") ⟨r, data, heap⟩ content (utf8 "x") (utf8 "d/x.msk") := by
  obtain ⟨r, h⟩ := disk_found
  obtain ⟨c, _, hR⟩ := C84_names (disk "d/x.msk") (fun s => conv_wide s) "d/" "x" "msk" (Or.inr ⟨"d", by decide +kernel⟩) (by decide +kernel)
    (by decide +kernel) (by decide +kernel) r h
  exact ⟨r, c, h, hR⟩

/-- `ų` is U+0173, and 0x73 is `s` -/
example : ∃ r, getReader (disk "d/x.msk") (wide "d/x.mųk") = some r := by
  obtain ⟨r, h⟩ := disk_found
  obtain ⟨r', _, _, _, h', _⟩ := C84_same_file (disk "d/x.msk") (fun s => conv_wide s) "d/x.msk" "d/x.mųk" (by decide +kernel)
    (by decide +kernel) r h
  exact ⟨r', h'⟩

example : ("x.mųk".toList.map fun c => c.toNat % 256) = "x.msk".toList.map fun c => c.toNat % 256 := by decide +kernel

end Verif.Props
