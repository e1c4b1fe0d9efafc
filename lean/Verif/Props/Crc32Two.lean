import Verif.Proofs.Crc32Two
import Verif.Props.Crc32Three

/-! C25, C23, C31: changes of up to two characters, and exchanged characters. -/

namespace Verif.Props
open Verif LayoutMatrix Base64
open Verif.Spec (bitOf crc32 checksumText alphabet padChar)

theorem getD_of {a b : List UInt8} {i : Nat} (h : a[i]? = b[i]?) : a.getD i 0 = b.getD i 0 := by
  rw [List.getD_eq_getElem?_getD, List.getD_eq_getElem?_getD, h]

theorem eq_of_getD {a b : List UInt8} (hl : a.length = b.length) (h : ∀ i, a.getD i 0 = b.getD i 0) : a = b := by
  apply List.ext_getElem hl
  intro i h1 h2
  have := h i
  rw [List.getD_eq_getElem?_getD, List.getD_eq_getElem?_getD, List.getElem?_eq_getElem h1, List.getElem?_eq_getElem h2] at this
  exact this

theorem crc32_upto_two (s s' : List UInt8) (hl : s.length = s'.length) (hne : s ≠ s') (p q : Nat)
    (hnear : q - p < 145212 ∧ p - q < 145212) (hd : ∀ i, i ≠ p → i ≠ q → s.getD i 0 = s'.getD i 0) : crc32 s ≠ crc32 s' := by
  have hlt : ∀ i, s.getD i 0 ≠ s'.getD i 0 → i < s.length := by
    intro i hi
    by_contra h
    rw [List.getD_eq_getElem?_getD, List.getD_eq_getElem?_getD, List.getElem?_eq_none (by omega), List.getElem?_eq_none (by omega)] at hi
    exact hi rfl
  have one : ∀ p, (∀ i, i ≠ p → s.getD i 0 = s'.getD i 0) → crc32 s ≠ crc32 s' := by
    intro p hd
    refine Crc32.crc32_burst s s' hl (8 * p) (fun t ht => ?_) hne
    by_contra hc
    apply ht
    unfold Spec.bitOf
    rw [hd (t / 8) (by omega)]
  have two : ∀ p q, p < q → q - p < 145212 → s.getD p 0 ≠ s'.getD p 0 → s.getD q 0 ≠ s'.getD q 0 →
      (∀ i, i ≠ p → i ≠ q → s.getD i 0 = s'.getD i 0) → crc32 s ≠ crc32 s' := by
    intro p q hpq hn hp hq hd
    rw [Ne, Crc32.crc32_two_bytes_iff s s' hl p q hpq (hlt q hq) hd]
    exact Crc32.two_bytes _ _ _ (Crc32.xor_toNat_lt _ _) (Crc32.xor_toNat_ne hp) (Crc32.xor_toNat_lt _ _) (by omega) hn
  by_cases hp : s.getD p 0 = s'.getD p 0
  · refine one q fun i hi => ?_
    by_cases hip : i = p
    · rw [hip]; exact hp
    · exact hd i hip hi
  by_cases hq : s.getD q 0 = s'.getD q 0
  · refine one p fun i hi => ?_
    by_cases hiq : i = q
    · rw [hiq]; exact hq
    · exact hd i hi hiq
  rcases Nat.lt_trichotomy p q with h | h | h
  · exact two p q h hnear.1 hp hq hd
  · subst h
    exact one p fun i hi => hd i hi hi
  · exact two q p h hnear.2 hq hp fun i h1 h2 => hd i h2 h1

/-- **C25** Every change of one or two bytes that are less than 145212 bytes apart changes the hash. -/
theorem C25_two_bytes_detected (s s' : List UInt8) (hl : s.length = s'.length) (hne : s ≠ s') (p q : Nat)
    (hnear : q - p < 145212 ∧ p - q < 145212) (hd : ∀ i, i ≠ p → i ≠ q → s[i]? = s'[i]?)
    (x y : Nat) (hx : Crc32.calcHash (some s) s.length = .ok x) (hy : Crc32.calcHash (some s') s'.length = .ok y) : x ≠ y := by
  rw [crcOk hx, crcOk hy]
  exact crc32_upto_two s s' hl hne p q hnear fun i h1 h2 => getD_of (hd i h1 h2)

theorem missed_pair : Spec.crcBits (8 * 145212) 248 = 169 := by
  rw [Crc32.crcBits_run _ _ (by norm_num) (by norm_num)]
  decide +kernel

/-- **C25** The bound is sharp: in every buffer of more than 145212 bytes the first byte and the byte 145212 further on can be
changed without changing the hash. -/
theorem C25_two_bytes_missed (s : List UInt8) (hs : 145212 < s.length) : ∃ (s' : List UInt8) (x : Nat), s'.length = s.length ∧
    (∀ i, s[i]? ≠ s'[i]? ↔ i = 0 ∨ i = 145212) ∧
    Crc32.calcHash (some s) s.length = .ok x ∧ Crc32.calcHash (some s') s'.length = .ok x := by
  let a := s.getD 0 0
  let b := s.getD 145212 0
  let s' := (s.set 0 (a ^^^ 248)).set 145212 (b ^^^ 169)
  have hl : s'.length = s.length := by simp [s']
  have g0 : s[0]? = some a := by simp only [a]; rw [List.getD_eq_getElem?_getD, List.getElem?_eq_getElem (by omega)]; rfl
  have g1 : s[145212]? = some b := by simp only [b]; rw [List.getD_eq_getElem?_getD, List.getElem?_eq_getElem (by omega)]; rfl
  have e0 : s'[0]? = some (a ^^^ 248) := by
    simp only [s']
    rw [List.getElem?_set_ne (by omega), List.getElem?_set_self (by omega)]
  have e1 : s'[145212]? = some (b ^^^ 169) := by
    simp only [s']
    rw [List.getElem?_set_self (by simp; omega)]
  have e2 : ∀ i, i ≠ 0 → i ≠ 145212 → s[i]? = s'[i]? := by
    intro i h0 h1
    simp only [s']
    rw [List.getElem?_set_ne (by omega), List.getElem?_set_ne (by omega)]
  have n0 : ∀ x y : UInt8, y ≠ 0 → x ≠ x ^^^ y := by
    intro x y hy h
    apply hy
    have := congrArg (x ^^^ ·) h
    simpa [← UInt8.xor_assoc] using this.symm
  have hx : ∀ x y : UInt8, x.toNat ^^^ (x ^^^ y).toNat = y.toNat := by
    intro x y
    rw [← UInt8.toNat_xor, ← UInt8.xor_assoc, UInt8.xor_self, UInt8.zero_xor]
  have hdiff : ∀ i, s[i]? ≠ s'[i]? ↔ i = 0 ∨ i = 145212 := by
    intro i
    constructor
    · intro h
      by_contra hc
      exact h (e2 i (by omega) (by omega))
    · rintro (rfl | rfl)
      · rw [g0, e0]; intro h; exact n0 a 248 (by decide) (Option.some.inj h)
      · rw [g1, e1]; intro h; exact n0 b 169 (by decide) (Option.some.inj h)
  have hcrc : crc32 s = crc32 s' := by
    rw [Crc32.crc32_two_bytes_iff s s' hl.symm 0 145212 (by omega) hs (fun i h1 h2 => getD_of (e2 i h1 h2))]
    have f0 : s'.getD 0 0 = a ^^^ 248 := by rw [List.getD_eq_getElem?_getD, e0]; rfl
    have f1 : s'.getD 145212 0 = b ^^^ 169 := by rw [List.getD_eq_getElem?_getD, e1]; rfl
    rw [f0, f1]
    show Spec.crcBits _ (a.toNat ^^^ (a ^^^ 248).toNat) = b.toNat ^^^ (b ^^^ 169).toNat
    rw [hx, hx]
    exact missed_pair
  refine ⟨s', crc32 s, hl, hdiff, ?_, ?_⟩
  · exact Crc32.calcHash_eq _ (by rintro rfl; simp at hs)
  · rw [hcrc]; exact Crc32.calcHash_eq _ (by intro h; rw [h] at hl; simp at hl; omega)

/-- **C25** Exchanging two different bytes changes the hash, unless their distance is a multiple of 2³² − 1. -/
theorem C25_swap (s : List UInt8) (p q : Nat) (hpq : p < q) (hq : q < s.length) (x y : Nat)
    (hx : Crc32.calcHash (some s) s.length = .ok x)
    (hy : Crc32.calcHash (some ((s.set p s[q]).set q s[p])) s.length = .ok y) :
    x = y ↔ s[p] = s[q] ∨ (2 ^ 32 - 1) ∣ q - p := by
  let s' := (s.set p s[q]).set q s[p]
  have hl : s'.length = s.length := by simp [s']
  have hy : Crc32.calcHash (some s') s'.length = .ok y := by rw [hl]; exact hy
  rw [crcOk hx, crcOk hy]
  have e2 : ∀ i, i ≠ p → i ≠ q → s[i]? = s'[i]? := by
    intro i h0 h1
    simp only [s']
    rw [List.getElem?_set_ne (by omega), List.getElem?_set_ne (by omega)]
  rw [Crc32.crc32_two_bytes_iff s s' hl.symm p q hpq hq (fun i h1 h2 => getD_of (e2 i h1 h2))]
  have f0 : s.getD p 0 = s[p] := by rw [List.getD_eq_getElem?_getD, List.getElem?_eq_getElem (by omega)]; rfl
  have f1 : s.getD q 0 = s[q] := by rw [List.getD_eq_getElem?_getD, List.getElem?_eq_getElem (by omega)]; rfl
  have f2 : s'.getD p 0 = s[q] := by
    simp only [s']
    rw [List.getD_eq_getElem?_getD, List.getElem?_set_ne (by omega), List.getElem?_set_self (by omega)]; rfl
  have f3 : s'.getD q 0 = s[p] := by
    simp only [s']
    rw [List.getD_eq_getElem?_getD, List.getElem?_set_self (by simp; omega)]; rfl
  rw [f0, f1, f2, f3, Nat.xor_comm s[q].toNat]
  by_cases h : s[p] = s[q]
  · rw [h, Nat.xor_self, Crc32.crcBits_zero]
    simp
  · rw [Crc32.byte_back _ _ (Crc32.xor_toNat_lt _ _) (Crc32.xor_toNat_ne h)]
    simp [h]

/-! ### one digit of the checksum -/

theorem alphabet_inj {a b : Nat} (ha : a < 64) (hb : b < 64) (h : alphabet false a = alphabet false b) : a = b := by
  have : ∀ a b : Fin 64, alphabet false a = alphabet false b → a = b := by decide +kernel
  exact congrArg Fin.val (this ⟨a, ha⟩ ⟨b, hb⟩ h)

theorem xor_mod (a b n : Nat) : (a ^^^ b) % 2 ^ n = a % 2 ^ n ^^^ b % 2 ^ n := Nat.xor_mod_two_pow
theorem xor_div (a b n : Nat) : (a ^^^ b) / 2 ^ n = a / 2 ^ n ^^^ b / 2 ^ n := Nat.xor_div_two_pow

theorem mem0 : ∀ k < 64, k ≠ 0 → 4 * k ∈ Crc32.deltas := by decide +kernel
theorem mem1 : ∀ a < 4, ∀ b < 16, a + 4096 * b ≠ 0 → a + 4096 * b ∈ Crc32.deltas := by decide +kernel
theorem mem2 : ∀ a < 16, ∀ b < 4, 256 * a + 4194304 * b ≠ 0 → 256 * a + 4194304 * b ∈ Crc32.deltas := by decide +kernel
theorem mem3 : ∀ k < 64, k ≠ 0 → 65536 * k ∈ Crc32.deltas := by decide +kernel
theorem mem4 : ∀ k < 64, k ≠ 0 → 67108864 * k ∈ Crc32.deltas := by decide +kernel
theorem mem5 : ∀ k < 4, k ≠ 0 → 16777216 * k ∈ Crc32.deltas := by decide +kernel

/-- two different numbers whose Base64 texts differ in one digit -/
theorem digit_delta (x y : Nat) (hx : x < 2 ^ 32) (hy : y < 2 ^ 32) (hne : x ≠ y) (q : Nat)
    (h0 : q ≠ 0 → x % 256 / 4 = y % 256 / 4)
    (h1 : q ≠ 1 → x % 256 % 4 = y % 256 % 4 ∧ x / 256 % 256 / 16 = y / 256 % 256 / 16)
    (h2 : q ≠ 2 → x / 256 % 256 % 16 = y / 256 % 256 % 16 ∧ x / 65536 % 256 / 64 = y / 65536 % 256 / 64)
    (h3 : q ≠ 3 → x / 65536 % 256 % 64 = y / 65536 % 256 % 64)
    (h4 : q ≠ 4 → x / 16777216 % 256 / 4 = y / 16777216 % 256 / 4)
    (h5 : q ≠ 5 → x / 16777216 % 256 % 4 = y / 16777216 % 256 % 4) : x ^^^ y ∈ Crc32.deltas := by
  generalize hz : x ^^^ y = z
  have hzl : z < 2 ^ 32 := by rw [← hz]; exact Nat.xor_lt_two_pow hx hy
  have hz0 : z ≠ 0 := by rintro rfl; exact hne (Crc32.xor_zero_eq hz)
  have part : ∀ a n m, (z / 2 ^ a % 2 ^ n / 2 ^ m = (x / 2 ^ a % 2 ^ n / 2 ^ m) ^^^ (y / 2 ^ a % 2 ^ n / 2 ^ m)) ∧
      (z / 2 ^ a % 2 ^ n % 2 ^ m = (x / 2 ^ a % 2 ^ n % 2 ^ m) ^^^ (y / 2 ^ a % 2 ^ n % 2 ^ m)) := by
    intro a n m
    rw [← hz, xor_div, xor_mod, xor_div, xor_mod]
    exact ⟨rfl, rfl⟩
  have z0 : q ≠ 0 → z % 256 / 4 = 0 := fun h => by
    have := (part 0 8 2).1
    simp only [Nat.pow_zero, Nat.div_one, show (2 : Nat) ^ 8 = 256 by rfl, show (2 : Nat) ^ 2 = 4 by rfl] at this
    rw [this, h0 h, Nat.xor_self]
  have z1 : q ≠ 1 → z % 256 % 4 = 0 ∧ z / 256 % 256 / 16 = 0 := fun h => by
    have p1 := (part 0 8 2).2
    have p2 := (part 8 8 4).1
    simp only [Nat.pow_zero, Nat.div_one, show (2 : Nat) ^ 8 = 256 by rfl, show (2 : Nat) ^ 2 = 4 by rfl,
      show (2 : Nat) ^ 4 = 16 by rfl] at p1 p2
    rw [p1, p2, (h1 h).1, (h1 h).2, Nat.xor_self, Nat.xor_self]
    exact ⟨rfl, rfl⟩
  have z2 : q ≠ 2 → z / 256 % 256 % 16 = 0 ∧ z / 65536 % 256 / 64 = 0 := fun h => by
    have p1 := (part 8 8 4).2
    have p2 := (part 16 8 6).1
    simp only [show (2 : Nat) ^ 8 = 256 by rfl, show (2 : Nat) ^ 16 = 65536 by rfl,
      show (2 : Nat) ^ 4 = 16 by rfl, show (2 : Nat) ^ 6 = 64 by rfl] at p1 p2
    rw [p1, p2, (h2 h).1, (h2 h).2, Nat.xor_self, Nat.xor_self]
    exact ⟨rfl, rfl⟩
  have z3 : q ≠ 3 → z / 65536 % 256 % 64 = 0 := fun h => by
    have p2 := (part 16 8 6).2
    simp only [show (2 : Nat) ^ 8 = 256 by rfl, show (2 : Nat) ^ 16 = 65536 by rfl, show (2 : Nat) ^ 6 = 64 by rfl] at p2
    rw [p2, h3 h, Nat.xor_self]
  have z4 : q ≠ 4 → z / 16777216 % 256 / 4 = 0 := fun h => by
    have p2 := (part 24 8 2).1
    simp only [show (2 : Nat) ^ 8 = 256 by rfl, show (2 : Nat) ^ 24 = 16777216 by rfl, show (2 : Nat) ^ 2 = 4 by rfl] at p2
    rw [p2, h4 h, Nat.xor_self]
  have z5 : q ≠ 5 → z / 16777216 % 256 % 4 = 0 := fun h => by
    have p2 := (part 24 8 2).2
    simp only [show (2 : Nat) ^ 8 = 256 by rfl, show (2 : Nat) ^ 24 = 16777216 by rfl, show (2 : Nat) ^ 2 = 4 by rfl] at p2
    rw [p2, h5 h, Nat.xor_self]
  have hzl : z < 4294967296 := hzl
  by_cases q0 : q = 0
  · have := z1 (by omega); have := z2 (by omega); have := z3 (by omega); have := z4 (by omega); have := z5 (by omega)
    have e : z = 4 * (z / 4) := by omega
    rw [e]; exact mem0 _ (by omega) (by omega)
  have := z0 q0
  by_cases q1 : q = 1
  · have := z2 (by omega); have := z3 (by omega); have := z4 (by omega); have := z5 (by omega)
    have e : z = z % 4 + 4096 * (z / 4096) := by omega
    rw [e]; exact mem1 _ (by omega) _ (by omega) (by omega)
  have := z1 q1
  by_cases q2 : q = 2
  · have := z3 (by omega); have := z4 (by omega); have := z5 (by omega)
    have e : z = 256 * (z / 256 % 16) + 4194304 * (z / 4194304) := by omega
    rw [e]; exact mem2 _ (by omega) _ (by omega) (by omega)
  have := z2 q2
  by_cases q3 : q = 3
  · have := z4 (by omega); have := z5 (by omega)
    have e : z = 65536 * (z / 65536) := by omega
    rw [e]; exact mem3 _ (by omega) (by omega)
  have := z3 q3
  by_cases q4 : q = 4
  · have := z5 (by omega)
    have e : z = 67108864 * (z / 67108864) := by omega
    rw [e]; exact mem4 _ (by omega) (by omega)
  have := z4 q4
  by_cases q5 : q = 5
  · have e : z = 16777216 * (z / 16777216) := by omega
    rw [e]; exact mem5 _ (by omega) (by omega)
  have := z5 q5
  omega

theorem checksum_digits (body : List UInt8) : checksumText body =
    [alphabet false (crc32 body % 256 / 4), alphabet false (crc32 body % 256 % 4 * 16 + crc32 body / 256 % 256 / 16),
      alphabet false (crc32 body / 256 % 256 % 16 * 4 + crc32 body / 65536 % 256 / 64), alphabet false (crc32 body / 65536 % 256 % 64),
      alphabet false (crc32 body / 16777216 % 256 / 4), alphabet false (crc32 body / 16777216 % 256 % 4 * 16),
      padChar false, padChar false] := by
  rw [crcText_eq]
  simp only [le32, encF, UInt8.toNat_ofNat']

theorem digits_inj {u v u' v' k : Nat} (h : v < k) (h' : v' < k) (e : u * k + v = u' * k + v') : u = u' ∧ v = v' := by
  have h1 : (u * k + v) / k = u := by rw [Nat.mul_comm, Nat.mul_add_div (by omega), Nat.div_eq_of_lt h, Nat.add_zero]
  have h2 : (u' * k + v') / k = u' := by rw [Nat.mul_comm, Nat.mul_add_div (by omega), Nat.div_eq_of_lt h', Nat.add_zero]
  have : u = u' := by rw [← h1, ← h2, e]
  subst this
  exact ⟨rfl, by omega⟩

/-- different bodies whose checksum texts differ in at most one character -/
theorem checksum_delta (a b : List UInt8) (hne : crc32 a ≠ crc32 b) (q : Nat)
    (h : ∀ i, i ≠ q → (checksumText a)[i]? = (checksumText b)[i]?) : crc32 a ^^^ crc32 b ∈ Crc32.deltas := by
  rw [checksum_digits, checksum_digits] at h
  refine digit_delta _ _ (Crc32.crc32_lt a) (Crc32.crc32_lt b) hne q ?_ ?_ ?_ ?_ ?_ ?_
  · intro hq
    have := alphabet_inj (by omega) (by omega) (Option.some.inj (h 0 (Ne.symm hq)))
    omega
  · intro hq
    exact digits_inj (by omega) (by omega) (alphabet_inj (by omega) (by omega) (Option.some.inj (h 1 (Ne.symm hq))))
  · intro hq
    exact digits_inj (by omega) (by omega) (alphabet_inj (by omega) (by omega) (Option.some.inj (h 2 (Ne.symm hq))))
  · intro hq
    have := alphabet_inj (by omega) (by omega) (Option.some.inj (h 3 (Ne.symm hq)))
    omega
  · intro hq
    have := alphabet_inj (by omega) (by omega) (Option.some.inj (h 4 (Ne.symm hq)))
    omega
  · intro hq
    have := alphabet_inj (by omega) (by omega) (Option.some.inj (h 5 (Ne.symm hq)))
    omega

/-- **C23** Changing any one or two characters of an armored text of up to 145220 characters makes decoding throw. -/
theorem C23_two_chars (body : List UInt8) (hb : body ≠ []) (hs : body.length ≤ 145212) (e' : List UInt8)
    (hl : e'.length = (body ++ checksumText body).length) (hne : e' ≠ body ++ checksumText body) (p q : Nat)
    (hd : ∀ i, i ≠ p → i ≠ q → e'[i]? = (body ++ checksumText body)[i]?) :
    base64Decode e' .radix64 = .throw .runtimeError := by
  have hl' : e'.length = body.length + 8 := by rw [hl, List.length_append, crcText_length]
  obtain ⟨B, C, e, lB⟩ := split_at (l := e') (n := body.length) (by omega)
  have lC : C.length = 8 := by rw [e, List.length_append] at hl'; omega
  subst e
  have hBn : B ≠ [] := by
    rintro rfl
    exact hb (List.length_eq_zero_iff.1 lB.symm)
  show radix64Decode _ = _
  rw [radix64Decode_split _ _ hBn (by omega) lC, if_pos]
  intro hC
  have dB : ∀ i, i < body.length → i ≠ p → i ≠ q → body.getD i 0 = B.getD i 0 := by
    intro i hi h1 h2
    have := hd i h1 h2
    rw [List.getElem?_append_left (by omega), List.getElem?_append_left (by omega)] at this
    exact (getD_of this).symm
  have dB' : ∀ i, i ≠ p → i ≠ q → body.getD i 0 = B.getD i 0 := by
    intro i h1 h2
    by_cases hi : i < body.length
    · exact dB i hi h1 h2
    · rw [List.getD_eq_getElem?_getD, List.getD_eq_getElem?_getD, List.getElem?_eq_none (by omega), List.getElem?_eq_none (by omega)]
  have dC : ∀ i, i + body.length ≠ p → i + body.length ≠ q → C[i]? = (checksumText body)[i]? := by
    intro i h1 h2
    have := hd (i + body.length) h1 h2
    rw [List.getElem?_append_right (by omega), List.getElem?_append_right (by omega)] at this
    rw [lB, Nat.add_sub_cancel] at this
    exact this
  by_cases hBb : body = B
  · subst hBb
    exact hne (by rw [hC])
  -- one of the two changes is in the body
  have hnone : ∀ i, body.length ≤ i → body.getD i 0 = B.getD i 0 := by
    intro i hi
    rw [List.getD_eq_getElem?_getD, List.getD_eq_getElem?_getD, List.getElem?_eq_none (by omega), List.getElem?_eq_none (by omega)]
  have mixed : ∀ p q, p < body.length → body.length ≤ q → (∀ i, i ≠ p → i ≠ q → body.getD i 0 = B.getD i 0) →
      (∀ i, i + body.length ≠ p → i + body.length ≠ q → C[i]? = (checksumText body)[i]?) → False := by
    intro p q hp hq h1 h2
    have h1' : ∀ i, i ≠ p → body.getD i 0 = B.getD i 0 := by
      intro i hi
      by_cases hiq : i = q
      · exact hnone i (by omega)
      · exact h1 i hi hiq
    have hpd : body.getD p 0 ≠ B.getD p 0 := by
      intro h
      apply hBb
      apply eq_of_getD lB.symm
      intro i
      by_cases hi : i = p
      · rw [hi]; exact h
      · exact h1' i hi
    have hone := Crc32.crc32_one_byte body B lB.symm p hp h1'
    have hcne : crc32 body ≠ crc32 B := by
      intro h
      rw [h, Nat.xor_self] at hone
      have := Crc32.crcBits_zero_inj _ _ (lt_trans (Crc32.xor_toNat_lt _ _) (by norm_num)) hone.symm
      have := Crc32.xor_toNat_ne hpd
      omega
    have := checksum_delta body B hcne (q - body.length) (fun i hi => by
      have := h2 i (by omega) (by omega)
      rw [← this, ← hC])
    rw [hone] at this
    exact Crc32.byte_delta _ _ _ (Crc32.xor_toNat_lt _ _) (Crc32.xor_toNat_ne hpd) this (by omega) (by omega) rfl
  by_cases hp : p < body.length
  · by_cases hq : q < body.length
    · refine crc32_upto_two body B lB.symm hBb p q ⟨by omega, by omega⟩ dB' ?_
      have : C = checksumText body := by
        apply List.ext_getElem?
        intro i
        exact dC i (by omega) (by omega)
      rw [this] at hC
      exact (crcText_inj hC).symm
    · exact mixed p q hp (by omega) dB' dC
  · by_cases hq : q < body.length
    · exact mixed q p hq (by omega) (fun i h1 h2 => dB' i h2 h1) (fun i h1 h2 => dC i h2 h1)
    · apply hBb
      apply eq_of_getD lB.symm
      intro i
      by_cases hi : i < body.length
      · exact dB i hi (by omega) (by omega)
      · exact hnone i (by omega)

theorem mid_get (a x c : List UInt8) (t : Nat) (h : t < x.length) : (a ++ x ++ c)[t + a.length]? = x[t]? := by
  rw [List.append_assoc, List.getElem?_append_right (by omega), Nat.add_sub_cancel, List.getElem?_append_left h]

/-- **C31** Changing any one or two characters of a hash of up to 145282 characters makes `DecodeHash` throw on every
platform. -/
theorem C31_two_chars (p : Platform) (al : Alloc) (m : BitMatrix) (hm : Built m) (h1 : 0 < m.isize)
    (h2 : 0 < m.jsize) (h : List UInt8) (he : encodeHash m = .ok h) (hs : h.length ≤ 145282)
    (h' : List UInt8) (hl : h'.length = h.length) (hne : h' ≠ h) (i j : Nat)
    (hd : ∀ t, t ≠ i → t ≠ j → h'[t]? = h[t]?) :
    ∃ e, decodeHash p al h' = .throw e := by
  obtain ⟨code, R, body, t, ec, hcn, rfl, hRe, hD, ht, hR, hbody⟩ := hash_parts hm h1 h2 he
  rw [covered_eq (by simp [hR] at hs; omega)] at hR
  subst hR
  have hlen : (strBegin ++ (body ++ checksumText body) ++ strEnd).length = 70 + body.length := by
    simp [strBegin_length, strEnd_length, crcText_length]; omega
  obtain ⟨A, B, C, D, e, lA, lB, lC, lD⟩ := four_parts h' body.length (by rw [hl, hlen])
  by_cases hA : A = strBegin
  swap
  · refine ⟨_, decodeHash_noBegin p al _ ?_⟩
    rw [e, List.append_assoc, List.append_assoc, List.take_left' lA]
    exact hA
  by_cases hE : D = strEnd
  swap
  · refine ⟨_, decodeHash_noEnd p al _ (by omega) ?_⟩
    rw [e, List.drop_left' (by simp; omega)]
    exact hE
  subst hA hE
  have hf : h' = strBegin ++ (B ++ C) ++ strEnd := by rw [e]; simp
  have hbn : body ≠ [] := by
    rintro rfl
    rw [List.nil_append] at hD
    have : base64Decode (checksumText []) .radix64 = .throw .invalidArgument := by
      have c8 := crcText_length []
      have cn : checksumText [] ≠ [] := by intro hh; rw [hh] at c8; cases c8
      show radix64Decode _ = _
      unfold radix64Decode
      rw [if_neg cn, if_pos (by omega)]
    rw [this] at hD
    cases hD
  -- positions inside the armored text; a change outside it is impossible here
  have hmid : ∀ t, t + 32 ≠ i → t + 32 ≠ j → (B ++ C)[t]? = (body ++ checksumText body)[t]? := by
    intro t ht1 ht2
    by_cases htl : t < body.length + 8
    · have := hd (t + 32) ht1 ht2
      have g1 := mid_get strBegin (B ++ C) strEnd t (by simp; omega)
      have g2 := mid_get strBegin (body ++ checksumText body) strEnd t (by simp [crcText_length]; omega)
      rw [strBegin_length] at g1 g2
      rw [hf, g1, g2] at this
      exact this
    · rw [List.getElem?_eq_none (by simp; omega), List.getElem?_eq_none (by simp [crcText_length]; omega)]
  have hneq : B ++ C ≠ body ++ checksumText body := fun hh => hne (by rw [hf, hh])
  have big : 145290 + 145290 < 1000000 := by norm_num
  have hthrow := C23_two_chars body hbn (by omega) (B ++ C) (by simp [crcText_length]; omega) hneq
    (if 32 ≤ i then i - 32 else 1000000) (if 32 ≤ j then j - 32 else 1000000) (fun t ht1 ht2 => by
      by_cases htl : t < 1000000
      · apply hmid
        · split at ht1 <;> omega
        · split at ht2 <;> omega
      · rw [List.getElem?_eq_none (by simp; omega), List.getElem?_eq_none (by simp [crcText_length]; omega)])
  rw [hf, decodeHash_frame, hthrow]
  exact ⟨_, rfl⟩

/-! Non-vacuity. -/

/-- two bytes of four changed -/
example : ∃ x y, Crc32.calcHash (some [1, 2, 3, 4]) 4 = .ok x ∧ Crc32.calcHash (some [9, 2, 3, 8]) 4 = .ok y ∧ x ≠ y := by
  refine ⟨_, _, C24_calcHash _ 4 (by decide) (by decide), C24_calcHash _ 4 (by decide) (by decide), ?_⟩
  refine C25_two_bytes_detected [1, 2, 3, 4] [9, 2, 3, 8] rfl (by decide) 0 3 (by decide) (fun i h0 h3 => ?_) _ _
    (C24_calcHash _ 4 (by decide) (by decide)) (C24_calcHash _ 4 (by decide) (by decide))
  match i, h0, h3 with
  | 1, _, _ => rfl
  | 2, _, _ => rfl
  | n + 4, _, _ => rfl

/-- the first and the last of three bytes exchanged -/
example : ∃ x y, Crc32.calcHash (some [1, 2, 3]) 3 = .ok x ∧ Crc32.calcHash (some [3, 2, 1]) 3 = .ok y ∧ x ≠ y := by
  refine ⟨_, _, C24_calcHash _ 3 (by decide) (by decide), C24_calcHash _ 3 (by decide) (by decide), ?_⟩
  intro h
  have := (C25_swap [1, 2, 3] 0 2 (by decide) (by decide) _ _ (C24_calcHash _ 3 (by decide) (by decide))
    (C24_calcHash _ 3 (by decide) (by decide))).1 h
  revert this
  decide

end Verif.Props
