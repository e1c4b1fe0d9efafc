import Verif.Props.HashText
import Verif.Props.TextSize
import Verif.Props.BitMatrixRatio

/-! C97: how much picture a text of given length can carry. -/

namespace Verif.Props
open Verif BitMatrix LayoutMatrix Base64 Spec Spec.HashText Ieee
open Verif.Spec.Msk (bytes)

theorem reads_length {e d : List UInt8} (h : Reads e d) : 4 * d.length ≤ 3 * e.length := by
  have hp : (e.takeWhile isAlpha).length ≤ e.length := (List.takeWhile_prefix _).length_le
  obtain ⟨-, h⟩ := h
  unfold DecodeOutcome at h
  dsimp only at h
  have key : ∀ d', Res.ok d = .ok d' → DecodesTo (e.takeWhile isAlpha) d' → 4 * d.length ≤ 3 * e.length := by
    intro d' hd h2
    cases hd
    have := h2.1
    omega
  split at h
  · split_ifs at h
    · obtain ⟨d', h1, h2⟩ := h
      exact key d' h1 h2
  · split_ifs at h
    · obtain ⟨d', h1, h2⟩ := h
      exact key d' h1 h2

theorem carries_length {h D : List UInt8} (hc : Carries h D) : 4 * D.length + 210 ≤ 3 * h.length := by
  obtain ⟨body, ⟨-, rfl⟩, hr⟩ := hc
  have h1 := reads_length hr
  have h2 : (noBreaks body).length ≤ body.length := List.length_filter_le _ _
  simp only [List.length_append]
  rw [begin_eq, end_eq, strBegin_length, strEnd_length, crcText_length]
  omega

theorem code_length {s : Bool} {h : List UInt8} {r c : Nat} {code : List UInt8} (hc : IsCode s h r c code) : 16 * code.length + 1374 ≤ 9 * h.length := by
  obtain ⟨D, payload, szText, flag, h1, ⟨head, l1, l2, l3, hD, -⟩, -, -, h5⟩ := hc
  have a := carries_length h1
  have b := reads_length h5
  have : D.length = payload.length + 62 := by
    have e : (bytes "__SIZE__").length = 8 := by decide
    rw [hD]
    simp only [List.length_append, l1, l2, e] at l3 ⊢
    omega
  omega

theorem expand_length_le (code : List UInt8) : (expand code).length ≤ 127 * code.length := by
  induction code with
  | nil => simp [expand]
  | cons b bs ih =>
    have : runLen b ≤ 127 := by unfold runLen; omega
    simp only [expand, List.length_append, List.length_replicate, List.length_cons]
    omega

/-- the places up to `N` where a bit of `L` (followed by zeros) differs from the next -/
def turns (L : List Bool) (N : Nat) : Finset Nat := (Finset.range N).filter fun n => L.getD n false ≠ L.getD (n + 1) false

theorem turns_replicate (v : Bool) (k : Nat) (L : List Bool) (N : Nat) : (turns (List.replicate k v ++ L) N).card ≤ (turns L N).card + 1 := by
  have hsub : turns (List.replicate k v ++ L) N ⊆ insert (k - 1) ((turns L N).image (· + k)) := by
    intro n hn
    simp only [turns, Finset.mem_filter, Finset.mem_range] at hn
    obtain ⟨h1, h2⟩ := hn
    rw [Finset.mem_insert, Finset.mem_image]
    by_cases hk : n < k
    · by_cases hk1 : n + 1 < k
      · exfalso
        apply h2
        simp [List.getD_eq_getElem?_getD, List.getElem?_append_left, hk, hk1]
      · left; omega
    · right
      refine ⟨n - k, ?_, by omega⟩
      simp only [turns, Finset.mem_filter, Finset.mem_range]
      refine ⟨by omega, ?_⟩
      have e : ∀ m, k ≤ m → (List.replicate k v ++ L).getD m false = L.getD (m - k) false := by
        intro m hm
        simp [List.getD_eq_getElem?_getD, List.getElem?_append_right, hm]
      rw [e n (by omega), e (n + 1) (by omega), show n + 1 - k = n - k + 1 by omega] at h2
      exact h2
  refine le_trans (Finset.card_le_card hsub) (le_trans (Finset.card_insert_le _ _) ?_)
  have := Finset.card_image_le (s := turns L N) (f := (· + k))
  omega

theorem turns_code (code : List UInt8) (N : Nat) : (turns (expand code) N).card ≤ code.length := by
  induction code with
  | nil => simp [expand, turns]
  | cons b bs ih =>
    have := turns_replicate (runVal b) (runLen b) (expand bs) N
    simp only [expand, List.length_cons]
    omega

theorem changes_turns {R C : Nat} {f : Nat → Nat → Bool} {L : List Bool} (hC : 0 < C)
    (h : ∀ i j, i < R → j < C → f i j = L.getD (i * C + j) false) : changes R C f = (turns L (R * C - 1)).card := by
  have e : ∀ n, n < R * C → f (n / C) (n % C) = L.getD n false := by
    intro n hn
    rw [h _ _ (Nat.div_lt_of_lt_mul (by rwa [Nat.mul_comm] at hn)) (Nat.mod_lt _ hC), Nat.mul_comm, Nat.div_add_mod]
  unfold changes turns
  rw [List.countP_eq_length_filter]
  have : (List.range (R * C - 1)).filter (fun n => f (n / C) (n % C) != f ((n + 1) / C) ((n + 1) % C)) =
      (List.range (R * C - 1)).filter (fun n => decide (L.getD n false ≠ L.getD (n + 1) false)) := by
    apply List.filter_congr
    intro n hn
    rw [List.mem_range] at hn
    rw [e n (by omega), e (n + 1) (by omega)]
    cases L.getD n false <;> cases L.getD (n + 1) false <;> rfl
  rw [this]
  rfl

/-- what every text that is read comes to -/
theorem text_code (p : Platform) (h : List UInt8) (hl : h.length < 2 ^ 32) (m : BitMatrix) (hd : decodeHash p Alloc.ok h = .ok m) (hj : 0 < m.jsize) :
    ∃ code : List UInt8, 16 * code.length + 1374 ≤ 9 * h.length ∧ Built m ∧
      ∀ i j, i < m.isize → j < m.jsize → BitMatrix.get m i j = .ok ((expand code).getD (i * m.jsize + j) false) := by
  cases hp : p.maskedShift
  · exfalso
    obtain ⟨h1, h2⟩ := C70_strict p hp Alloc.ok h hl
    by_cases hx : (∃ body, Framed h body ∧ Overruns (noBreaks body)) ∨ (∃ D payload szText rest s, Carries h D ∧ SizeSection D payload szText rest ∧
        Reads szText s ∧ s.length = 16)
    · rw [h1 hx] at hd; cases hd
    · obtain ⟨e, he⟩ := h2 hx
      rw [he] at hd; cases hd
  · by_cases a1 : ∃ r c code, IsCode p.charSigned h r c code
    · obtain ⟨r, c, code, hc⟩ := a1
      obtain ⟨m', e, hb, rfl, rfl, hg⟩ := C70_code p hp h hl r c code hc
      rw [hd] at e
      cases e
      exact ⟨code, code_length hc, hb, hg⟩
    · exfalso
      by_cases a2 : ∃ r c payload, IsRaw p.charSigned h r c payload
      · obtain ⟨r, c, payload, hc⟩ := a2
        obtain ⟨m', e, -, h0⟩ := C70_raw p hp h hl r c payload hc
        rw [hd] at e
        cases e
        omega
      · by_cases a3 : IsOverrun p.charSigned h
        · rw [C70_overrun p hp h hl a3] at hd; cases hd
        · push Not at a1 a2
          obtain ⟨e, he⟩ := C70_otherwise p hp h hl a1 a2 a3
          rw [he] at hd; cases hd

theorem get_in {m : BitMatrix} {i j : Nat} {b : Bool} (h : BitMatrix.get m i j = .ok b) : i < m.isize ∧ j < m.jsize := by
  by_contra hh
  have : m.isize ≤ i ∨ m.jsize ≤ j := by omega
  simp [BitMatrix.get, this] at h

/-- **C97** Whatever text is read and whatever sizes it announces: with `k` = (9·length − 1374)/16 (rounded down), only the first 127·`k` cells, counted
row by row, can be on, and the bitmap has at most `k` changes. -/
theorem C97_content (p : Platform) (h : List UInt8) (hl : h.length < 2 ^ 32) (m : BitMatrix) (hd : decodeHash p Alloc.ok h = .ok m) (hc : 0 < m.jsize) :
    1374 ≤ 9 * h.length ∧
    (∀ i j, BitMatrix.get m i j = .ok true → i * m.jsize + j < 127 * ((9 * h.length - 1374) / 16)) ∧
    ∀ f : Nat → Nat → Bool, (∀ i j, i < m.isize → j < m.jsize → BitMatrix.get m i j = .ok (f i j)) →
      changes m.isize m.jsize f ≤ (9 * h.length - 1374) / 16 := by
  obtain ⟨code, h1, hb, hg⟩ := text_code p h hl m hd hc
  have hk : code.length ≤ (9 * h.length - 1374) / 16 := by omega
  refine ⟨by omega, fun i j hlit => ?_, fun f hf => ?_⟩
  · obtain ⟨hi, hj⟩ := get_in hlit
    rw [hg i j hi hj] at hlit
    have hlit := Res.ok.inj hlit
    have hle := expand_length_le code
    by_contra hh
    rw [List.getD_eq_getElem?_getD, List.getElem?_eq_none (by omega)] at hlit
    cases hlit
  · rw [changes_turns (L := expand code) hc fun i j hi hj' => by
      have := hf i j hi hj'
      rw [hg i j hi hj'] at this
      exact (Res.ok.inj this).symm]
    exact le_trans (turns_code code _) hk

/-- the cells before the `n`-th, row by row -/
theorem early_card (C n : Nat) (S : Finset (Nat × Nat)) (hS : ∀ q ∈ S, q.2 < C ∧ q.1 * C + q.2 < n) : S.card ≤ n := by
  have : (S.image fun q => q.1 * C + q.2).card = S.card := by
    apply Finset.card_image_of_injOn
    rintro ⟨i, j⟩ h1 ⟨i', j'⟩ h2 e
    have a := (hS _ h1).1
    have b := (hS _ h2).1
    simp only at a b e
    have e1 := congrArg (· / C) e
    have e2 := congrArg (· % C) e
    simp only [Nat.mul_comm _ C, Nat.mul_add_div (show 0 < C by omega), Nat.mul_add_mod, Nat.div_eq_of_lt a, Nat.div_eq_of_lt b, Nat.mod_eq_of_lt a,
      Nat.mod_eq_of_lt b] at e1 e2
    simp only [Nat.add_zero] at e1
    rw [e1, e2]
  rw [← this]
  have h2 : (S.image fun q => q.1 * C + q.2) ⊆ Finset.range n := by
    intro x hx
    obtain ⟨q, hq, rfl⟩ := Finset.mem_image.1 hx
    exact Finset.mem_range.2 (hS q hq).2
  simpa using Finset.card_le_card h2

/-- **C97** The covered fraction of a bitmap read from `n` characters is at most 72`n`/cells. -/
theorem C97_ratio (p : Platform) (h : List UInt8) (hl : h.length < 2 ^ 32) (m : BitMatrix) (hd : decodeHash p Alloc.ok h = .ok m) (hr : 0 < m.isize)
    (hc : 0 < m.jsize) (hs : m.isize * m.jsize ≤ 2 ^ 53) :
    countOf m true ≤ 72 * h.length ∧ ∃ q : ℚ, BitMatrix.oneRatio id m = .ok (.fin q) ∧ q ≤ 72 * h.length / (m.isize * m.jsize : ℕ) := by
  obtain ⟨h1, h2, -⟩ := C97_content p h hl m hd hc
  obtain ⟨code, -, hb, -⟩ := text_code p h hl m hd hc
  have hcnt : countOf m true ≤ 72 * h.length := by
    refine le_trans (early_card m.jsize (127 * ((9 * h.length - 1374) / 16)) _ fun q hq => ?_) (by omega)
    obtain ⟨-, hq⟩ := Finset.mem_filter.1 hq
    exact ⟨(get_in hq).2, h2 _ _ hq⟩
  refine ⟨hcnt, _, (C10_ratio m hb hr hc hs).1, ?_⟩
  have : (0 : ℚ) < (m.isize * m.jsize : ℕ) := by exact_mod_cast Nat.mul_pos hr hc
  apply div_le_div_of_nonneg_right _ this.le
  exact_mod_cast hcnt

/-- **C97** So two bitmaps of one size, read from texts of at most `n` characters, differ in at most 72`n` cells, and with at least 720 000·`n` cells
they are equal by `==`, whatever the texts say. -/
theorem C97_large_equal (p : Platform) (n : Nat) (ha hb : List UInt8) (la : ha.length ≤ n) (lb : hb.length ≤ n) (hn : n < 2 ^ 32) (a b : BitMatrix)
    (da : decodeHash p Alloc.ok ha = .ok a) (db : decodeHash p Alloc.ok hb = .ok b) (h1 : a.isize = b.isize) (h2 : a.jsize = b.jsize)
    (h3 : 0 < a.isize) (h4 : 0 < a.jsize) :
    diffCount a b ≤ 72 * n ∧
    (720000 * n ≤ a.isize * a.jsize → a.isize * a.jsize ≤ 2 ^ 53 → BitMatrix.opEq rne Alloc.ok a b = .ok true) := by
  obtain ⟨-, ea, -⟩ := C97_content p ha (by omega) a da h4
  obtain ⟨-, eb, -⟩ := C97_content p hb (by omega) b db (by omega)
  obtain ⟨_, -, ba, ga⟩ := text_code p ha (by omega) a da h4
  obtain ⟨_, -, bb, gb⟩ := text_code p hb (by omega) b db (by omega)
  have hd : diffCount a b ≤ 72 * n := by
    refine le_trans (early_card a.jsize (127 * ((9 * n - 1374) / 16)) _ fun q hq => ?_) (by omega)
    obtain ⟨hin, hq⟩ := Finset.mem_filter.1 hq
    have hin : q.1 < a.isize ∧ q.2 < a.jsize := by
      simpa [cells] using hin
    refine ⟨hin.2, ?_⟩
    have mono : ∀ l, l ≤ n → 127 * ((9 * l - 1374) / 16) ≤ 127 * ((9 * n - 1374) / 16) := fun l hl =>
      Nat.mul_le_mul_left _ (Nat.div_le_div_right (Nat.sub_le_sub_right (Nat.mul_le_mul_left _ hl) _))
    have xa := ga q.1 q.2 hin.1 hin.2
    have xb := gb q.1 q.2 (by omega) (by omega)
    rw [xa, xb] at hq
    rcases Bool.eq_false_or_eq_true ((expand _).getD (q.1 * a.jsize + q.2) false) with t | t
    · exact lt_of_lt_of_le (ea q.1 q.2 (by rw [xa, t])) (mono _ la)
    · rcases Bool.eq_false_or_eq_true ((expand _).getD (q.1 * b.jsize + q.2) false) with t' | t'
      · have := eb q.1 q.2 (by rw [xb, t'])
        rw [← h2] at this
        exact lt_of_lt_of_le this (mono _ lb)
      · exfalso
        rw [t, t'] at hq
        exact hq rfl
  exact ⟨hd, fun h5 h6 => (C09_one_sided a b ba bb h1 h2 h3 h4 h6).1 (by omega)⟩

/-- **C97** The same for two files. -/
theorem C97_files (p : Platform) (n : Nat) (fs : Fs) (na nb ha hb : List UInt8) (fa : fs.files na = some ha) (fb : fs.files nb = some hb)
    (la : ha.length ≤ n) (lb : hb.length ≤ n) (hn : n < 2 ^ 32) (a b a0 b0 : BitMatrix)
    (ra : readFile p Alloc.ok fs na a0 = .ok true a) (rb : readFile p Alloc.ok fs nb b0 = .ok true b)
    (h1 : a.isize = b.isize) (h2 : a.jsize = b.jsize) (h5 : 720000 * n ≤ a.isize * a.jsize) (h6 : a.isize * a.jsize ≤ 2 ^ 53) :
    BitMatrix.opEq rne Alloc.ok a b = .ok true := by
  have key : ∀ (nm h : List UInt8) (m m0 : BitMatrix), fs.files nm = some h → readFile p Alloc.ok fs nm m0 = .ok true m →
      decodeHash p Alloc.ok h = .ok m ∧ opNot m = false := by
    intro nm h m m0 hf hr
    unfold readFile at hr
    split_ifs at hr
    · cases hr
    · cases hr
    · rw [hf] at hr
      dsimp only at hr
      cases hd : decodeHash p Alloc.ok h with
      | ub => rw [hd] at hr; cases hr
      | throw e => rw [hd] at hr; cases hr
      | ok m' =>
        rw [hd] at hr
        dsimp only at hr
        cases hno : opNot m' <;> simp [hno] at hr
        subst hr
        exact ⟨rfl, hno⟩
  obtain ⟨da, oa⟩ := key _ _ _ _ fa ra
  obtain ⟨db, -⟩ := key _ _ _ _ fb rb
  have hpos : 0 < a.isize ∧ 0 < a.jsize := by
    by_contra hh
    unfold opNot at oa
    simp at oa
    omega
  exact (C97_large_equal p n ha hb la lb hn a b da db h1 h2 hpos.1 hpos.2).2 h5 h6

end Verif.Props
