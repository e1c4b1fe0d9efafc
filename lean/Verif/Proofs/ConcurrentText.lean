import Verif.Props.HashText

/-! Proofs for C81: texts in which some characters are missing (zero bytes in a file written by several programs). -/

namespace Verif.Proofs.Conc
open Verif BitMatrix LayoutMatrix Base64
open Verif.Spec.HashText Verif.Spec
open Verif.Props

/-- each character of `g` is the one of `h` in its place, or a zero byte -/
def Holed (h g : List UInt8) : Prop := ∀ (i : Nat) (b : UInt8), g[i]? = some b → b = 0 ∨ h[i]? = some b

/-- a place at which the end line begins in a text of the library is the last one possible -/
theorem end_place {m : BitMatrix} (hm : Built m) (h1 : 0 < m.isize) (h2 : 0 < m.jsize) {h : List UInt8} (he : encodeHash m = .ok h)
    {n : Nat} (hn : 32 ≤ n) (hget : ∀ k, k < 30 → h[n - 30 + k]? = strEnd[k]?) : n = h.length := by
  obtain ⟨code, R, body, t, ec, hne, rfl, hRe, hD, ht, hR, hbody⟩ := hash_parts hm h1 h2 he
  have hl : (strBegin ++ R ++ strEnd).length = 62 + R.length := by
    simp [strBegin_length, strEnd_length]; omega
  have hnle : n ≤ (strBegin ++ R ++ strEnd).length := by
    have := hget 29 (by omega)
    rw [show strEnd[29]? = some 45 by decide] at this
    obtain ⟨hlt, _⟩ := List.getElem?_eq_some_iff.1 this
    omega
  by_contra hnn
  by_cases hmid : n ≤ 32 + R.length
  · have hlast := hget 29 (by omega)
    have he29 : strEnd[29]? = some 45 := by decide
    rw [he29, show n - 30 + 29 = n - 1 by omega] at hlast
    by_cases h32 : n = 32
    · subst h32
      rw [List.append_assoc, List.getElem?_append_left (by rw [strBegin_length]; omega)] at hlast
      have : strBegin[31]? = some 10 := by decide
      rw [show 32 - 1 = 31 from rfl, this] at hlast
      exact absurd hlast (by decide)
    · rw [List.append_assoc, List.getElem?_append_right (by rw [strBegin_length]; omega),
        List.getElem?_append_left (by rw [strBegin_length]; omega)] at hlast
      have hmem : (45 : UInt8) ∈ R := List.mem_of_getElem? hlast
      rw [hR, List.mem_append] at hmem
      have htne : t ≠ [] := by rw [ht]; simp [inner]
      rcases hmem with hmem | hmem
      · rw [hbody] at hmem
        rcases splitLoop_mem _ (encF_ne_nil false htne) _ hmem with h' | h' | h'
        · exact encF_noHyphen _ _ h' rfl
        · exact absurd h' (by decide)
        · exact absurd h' (by decide)
      · exact encF_noHyphen _ _ (crcText_eq (Spec.covered body) ▸ hmem) rfl
  · obtain ⟨k, hk⟩ : ∃ k, n = 32 + R.length + k := ⟨n - (32 + R.length), by omega⟩
    have hx := hget (30 - k) (by omega)
    have hfull : (strBegin ++ R ++ strEnd)[n - 30 + (30 - k)]? = strEnd[0]? := by
      rw [List.getElem?_append_right (by simp [strBegin_length]; omega)]
      congr 1
      simp [strBegin_length]; omega
    rw [hfull] at hx
    have hall : ∀ k, k < 30 → 0 < k → strEnd[0]? ≠ strEnd[30 - k]? := by decide
    exact hall k (by omega) (by omega) hx

/-- decoding a text in which characters are missing: an error, or as if they were there (behind the padding) -/
theorem outcome_holed {a x y : List UInt8} {r r' : Res (List UInt8)} (h : DecodeOutcome (a ++ x) r) (h' : DecodeOutcome (a ++ 0 :: y) r') :
    r' = r ∨ r' = .throw .runtimeError := by
  by_cases hall : ∀ c ∈ a, Spec.isAlpha c = true
  · right
    have ht : (a ++ 0 :: y).takeWhile Spec.isAlpha = a := by
      rw [List.takeWhile_append_of_pos hall, List.takeWhile_cons_of_neg (by decide), List.append_nil]
    unfold DecodeOutcome at h'
    simp only [ht, List.drop_left] at h'
    rw [if_neg] at h'
    · exact h'
    · rintro ⟨_, hc | hc⟩ <;> exact absurd hc (by decide)
  · left
    push Not at hall
    have hsplit : ∀ l : List UInt8, (∃ c ∈ l, Spec.isAlpha c ≠ true) → ∃ q c z, l = q ++ c :: z ∧ (∀ b ∈ q, Spec.isAlpha b = true) ∧
        ¬ Spec.isAlpha c = true := by
      intro l
      induction l with
      | nil => rintro ⟨c, hc, _⟩; cases hc
      | cons b l ih =>
        intro hex
        by_cases hb : Spec.isAlpha b = true
        · obtain ⟨c, hc, hn⟩ := hex
          have hcl : c ∈ l := by
            rcases List.mem_cons.1 hc with rfl | hc
            · exact absurd hb hn
            · exact hc
          obtain ⟨q, c', z, rfl, hq, hc'⟩ := ih ⟨c, hcl, hn⟩
          exact ⟨b :: q, c', z, rfl, by simpa [hb] using hq, hc'⟩
        · exact ⟨[], b, l, rfl, by simp, hb⟩
    obtain ⟨q, c, z, rfl, hq, hc⟩ := hsplit a hall
    have ht : ∀ s, (q ++ c :: z ++ s).takeWhile Spec.isAlpha = q := by
      intro s
      rw [List.append_assoc, List.takeWhile_append_of_pos hq, List.cons_append, List.takeWhile_cons_of_neg hc, List.append_nil]
    have hd : ∀ s, (q ++ c :: z ++ s).drop q.length = c :: (z ++ s) := by
      intro s
      rw [List.append_assoc, List.drop_left, List.cons_append]
    refine outcome_unique (e := q ++ c :: z ++ x) ?_ h
    unfold DecodeOutcome at h' ⊢
    simp only [ht, hd] at h' ⊢
    exact h'

/-- the first missing character -/
theorem holed_split : ∀ (h g : List UInt8), g.length = h.length → Holed h g → g = h ∨ ∃ a b x y, h = a ++ b :: x ∧ g = a ++ 0 :: y := by
  intro h
  induction h with
  | nil => intro g hl _; exact .inl (List.eq_nil_of_length_eq_zero hl)
  | cons b h ih =>
    intro g hl hg
    cases g with
    | nil => cases hl
    | cons c g =>
      rcases hg 0 c rfl with hc | hc
      · subst hc
        exact .inr ⟨[], b, h, g, rfl, rfl⟩
      · have hcb : b = c := by simpa using hc
        subst hcb
        rcases ih g (by simpa using hl) (fun i d hd => by simpa using hg (i + 1) d (by simpa using hd)) with rfl | ⟨a, d, x, y, rfl, rfl⟩
        · exact .inl rfl
        · exact .inr ⟨b :: a, d, x, y, rfl, rfl⟩

theorem lines_holed {body body' : List UInt8} (hl : body'.length = body.length) (hh : Holed body body') {d : List UInt8}
    (hd : decodeWithSeparators body = .ok d) : decodeWithSeparators body' = .ok d ∨ ∃ e, decodeWithSeparators body' = .throw e := by
  rcases holed_split body body' hl hh with rfl | ⟨a, b, x, y, rfl, rfl⟩
  · exact .inl hd
  · have e1 := C20_exact_lines (a ++ b :: x) .mime (.inr rfl)
    have e2 := C20_exact_lines (a ++ 0 :: y) .mime (.inr rfl)
    have hm : ∀ e, base64Decode e .mime = decodeWithSeparators e := fun _ => rfl
    rw [hm] at e1 e2
    have hne : (a ++ b :: x).filter (fun c => c ≠ 10 ∧ c ≠ 13) ≠ [] := by
      intro hn
      have := e1.1 hn
      rw [hd] at this
      cases this
    have hne' : (a ++ 0 :: y).filter (fun c => c ≠ 10 ∧ c ≠ 13) ≠ [] := by
      rw [List.filter_append, List.filter_cons_of_pos (by decide)]
      simp
    have o1 := e1.2 hne
    have o2 := e2.2 hne'
    rw [List.filter_append] at o1
    rw [List.filter_append, List.filter_cons_of_pos (by decide)] at o2
    rcases outcome_holed o1 o2 with h | h
    · exact .inl (h.trans hd)
    · exact .inr ⟨_, h⟩

theorem Holed.drop {h g : List UInt8} (k : Holed h g) (n : Nat) : Holed (h.drop n) (g.drop n) := by
  intro i b hb
  rw [List.getElem?_drop] at hb ⊢
  exact k _ b hb

theorem Holed.take {h g : List UInt8} (k : Holed h g) (n : Nat) : Holed (h.take n) (g.take n) := by
  intro i b hb
  rw [List.getElem?_take] at hb ⊢
  split_ifs at hb ⊢
  exact k _ b hb

/-- A text of the library with missing characters is not mistaken for anything else: it is decoded to the same, or an exception is
thrown. -/
theorem decode_holed (p : Platform) (al : Alloc) {m : BitMatrix} (hm : Built m) (h1 : 0 < m.isize) (h2 : 0 < m.jsize) {h g : List UInt8}
    (he : encodeHash m = .ok h) (hg : Holed h g) : decodeHash p al g = decodeHash p al h ∨ ∃ e, decodeHash p al g = .throw e := by
  by_cases hb : g.take 32 = strBegin
  swap
  · exact .inr ⟨_, decodeHash_noBegin p al g hb⟩
  have h32 : 32 ≤ g.length := by
    have := congrArg List.length hb
    rw [List.length_take, strBegin_length] at this
    omega
  by_cases hend : g.drop (g.length - 30) = strEnd
  swap
  · exact .inr ⟨_, decodeHash_noEnd p al g (by omega) hend⟩
  have hlen : g.length = h.length := by
    refine end_place hm h1 h2 he h32 fun k hk => ?_
    have hk' : g[g.length - 30 + k]? = strEnd[k]? := by rw [← hend, List.getElem?_drop]
    obtain ⟨b, hb'⟩ : ∃ b, strEnd[k]? = some b := ⟨strEnd[k]'(by rw [strEnd_length]; omega), List.getElem?_eq_getElem _⟩
    rw [hb'] at hk' ⊢
    rcases hg _ b hk' with h0 | h0
    · have hz : ∀ c ∈ strEnd, c ≠ 0 := by decide
      exact absurd h0 (hz b (List.mem_of_getElem? hb'))
    · exact h0
  obtain ⟨code, R, body, t, ec, hne, rfl, hRe, hD, ht, hR, hbody⟩ := hash_parts hm h1 h2 he
  have hl : (strBegin ++ R ++ strEnd).length = 62 + R.length := by
    simp [strBegin_length, strEnd_length]; omega
  obtain ⟨R', hR'⟩ : ∃ R', g = strBegin ++ R' ++ strEnd := by
    refine ⟨(g.drop 32).take (g.length - 62), ?_⟩
    rw [← hb, List.append_assoc]
    conv_lhs => rw [← List.take_append_drop 32 g]
    congr 1
    conv_lhs => rw [← List.take_append_drop (g.length - 62) (g.drop 32)]
    congr 1
    rw [List.drop_drop, ← hend]
    congr 1
    omega
  have hRl : R'.length = R.length := by
    have := congrArg List.length hR'
    simp only [List.length_append, strBegin_length, strEnd_length] at this hl hlen
    omega
  have hRh : Holed R R' := by
    have := (hg.drop 32).take R.length
    rw [hR', List.append_assoc, List.append_assoc, List.drop_left' strBegin_length, List.drop_left' strBegin_length,
      List.take_left' rfl, List.take_left' hRl] at this
    exact this
  rw [hR', decodeHash_after, decodeHash_after]
  have hcl : (Spec.checksumText (Spec.covered body)).length = 8 := crcText_length _
  obtain ⟨body', sum', hsplit, hbl, hsl⟩ : ∃ body' sum', R' = body' ++ sum' ∧ body'.length = body.length ∧ sum'.length = 8 := by
    have hRlen : R.length = body.length + 8 := by rw [hR, List.length_append, hcl]
    refine ⟨R'.take body.length, R'.drop body.length, (List.take_append_drop _ _).symm, ?_, ?_⟩
    · rw [List.length_take]; omega
    · rw [List.length_drop]; omega
  have hbh : Holed body body' := by
    have := hRh.take body.length
    rw [hR, hsplit, List.take_left' rfl, List.take_left' hbl] at this
    exact this
  have hmod : body.length % 2 ^ 32 ≠ 0 := by
    intro h0
    have hx : radix64Decode R = .ok t := hD
    have hbne : body ≠ [] := by
      rw [hbody]
      intro hh
      obtain ⟨full, last, _, hlast, _, _, h5⟩ := splitLoop_spec 76 (by decide) (encF false t)
        (encF_ne_nil false (show t ≠ [] by rw [ht]; simp [inner]))
      rw [h5, List.append_eq_nil_iff] at hh
      rw [hh.2] at hlast
      exact absurd hlast (by simp)
    have hRne : R ≠ [] := by rw [hR]; simp [hbne]
    have hR8 : ¬ R.length ≤ 8 := by
      rw [hR, List.length_append, hcl]
      have := List.length_pos_iff.2 hbne
      omega
    have htk : R.take (R.length - 8) = body := by rw [hR]; apply List.take_left'; simp [hcl]
    rw [radix64Decode, if_neg hRne, if_neg hR8] at hx
    simp only [htk, h0, Crc32.calcHash, if_true] at hx
    cases hx
  have e1 : radix64Decode R = .ok t := hD
  rw [hR, radix64Decode_gen _ _ hmod hcl, if_neg (by simp)] at e1
  have e2 := radix64Decode_gen body' sum' (by rw [hbl]; exact hmod) hsl
  rw [← hsplit] at e2
  show (radix64Decode R' >>= afterBody p al) = (radix64Decode R >>= afterBody p al) ∨ ∃ e, (radix64Decode R' >>= afterBody p al) = .throw e
  rw [e2, show radix64Decode R = .ok t from hD]
  split_ifs with hs
  · exact .inr ⟨_, rfl⟩
  · rcases lines_holed hbl hbh e1 with e3 | ⟨e, e3⟩
    · rw [e3]; exact .inl rfl
    · rw [e3]; exact .inr ⟨e, rfl⟩

end Verif.Proofs.Conc
