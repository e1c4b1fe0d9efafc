import Verif.Props.Base64
import Verif.Spec.Base64Decode
import Mathlib.Tactic.IntervalCases

/-! C20: the outcome of decoding, for every text. -/

namespace Verif.Props
open Verif Base64
open Verif.Spec (alphabet padChar isAlpha msbBit digit digitBit DecodesTo DecodeOutcome)

theorem digit_symb (c : UInt8) (h : isAlpha c = true) :
    digit c < 64 ∧ symbPosition c = .ok (digit c) ∧ notPad c = true := by
  have : ∀ k < 256, isAlpha (UInt8.ofNat k) = true → digit (UInt8.ofNat k) < 64 ∧
      symbPosition (UInt8.ofNat k) = .ok (digit (UInt8.ofNat k)) ∧ notPad (UInt8.ofNat k) = true := by decide +kernel
  have := this c.toNat c.toNat_lt
  rw [UInt8.ofNat_toNat] at this
  exact this h

theorem notPad_iff (c : UInt8) : notPad c = false ↔ c = padChar false ∨ c = padChar true := by
  have : ∀ k < 256, (notPad (UInt8.ofNat k) = false ↔ UInt8.ofNat k = padChar false ∨ UInt8.ofNat k = padChar true) := by
    decide +kernel
  have := this c.toNat c.toNat_lt
  rwa [UInt8.ofNat_toNat] at this

theorem digitBit_eq (p : List UInt8) (n : Nat) : digitBit p n = digit (p.getD (n / 6) 0) / 2 ^ (5 - n % 6) % 2 := tb _ _

theorem digitBit_shift (a b c d : UInt8) (p : List UInt8) (n : Nat) :
    digitBit (a :: b :: c :: d :: p) (24 + n) = digitBit p n := by
  unfold digitBit
  rw [show (24 + n) / 6 = n / 6 + 4 by omega, show (24 + n) % 6 = n % 6 by omega]
  simp

/-- the bytes of a group -/
def byte0 (a b : UInt8) : UInt8 := UInt8.ofNat (digit a <<< 2) ||| UInt8.ofNat (digit b >>> 4)
def byte1 (b c : UInt8) : UInt8 := UInt8.ofNat ((digit b &&& 0x0F) <<< 4) ||| UInt8.ofNat ((digit c &&& 0x3C) >>> 2)
def byte2 (c d : UInt8) : UInt8 := UInt8.ofNat ((digit c &&& 0x03) <<< 6) ||| UInt8.ofNat (digit d &&& 0x3F)

theorem byte_val {x k y : Nat} (hy : y < 2 ^ k) : (UInt8.ofNat (x <<< k) ||| UInt8.ofNat y).toNat = (x * 2 ^ k + y) % 256 := by
  rw [← UInt8.ofNat_or, or_add _ _ _ hy, UInt8.toNat_ofNat']

theorem byte0_val {a b : UInt8} (ha : digit a < 64) (hb : digit b < 64) : (byte0 a b).toNat = digit a * 4 + digit b / 16 := by
  unfold byte0
  rw [Nat.shiftRight_eq_div_pow, byte_val (by omega)]
  omega

theorem byte1_val {b c : UInt8} (hc : digit c < 64) : (byte1 b c).toNat = digit b % 16 * 16 + digit c / 4 := by
  unfold byte1
  rw [and_3C _ hc, and_0F, byte_val (by omega)]
  omega

theorem byte2_val {c d : UInt8} (hd : digit d < 64) : (byte2 c d).toNat = digit c % 4 * 64 + digit d := by
  unfold byte2
  rw [and_3F, and_3, byte_val (by omega)]
  omega

theorem decodes_two {a b : UInt8} (ha : digit a < 64) (hb : digit b < 64) : DecodesTo [a, b] [byte0 a b] := by
  refine ⟨by simp, fun n hn => ?_⟩
  rw [msbBit_eq, digitBit_eq]
  simp only [List.length_cons, List.length_nil] at hn
  interval_cases n <;> simp [byte0_val ha hb] <;> omega

theorem decodes_three {a b c : UInt8} (ha : digit a < 64) (hb : digit b < 64) (hc : digit c < 64) :
    DecodesTo [a, b, c] [byte0 a b, byte1 b c] := by
  refine ⟨by simp, fun n hn => ?_⟩
  rw [msbBit_eq, digitBit_eq]
  simp only [List.length_cons, List.length_nil] at hn
  interval_cases n <;> simp [byte0_val ha hb, byte1_val hc] <;> omega

theorem decodes_four {a b c d : UInt8} {p q : List UInt8} (ha : digit a < 64) (hb : digit b < 64) (hc : digit c < 64)
    (hd : digit d < 64) (h : DecodesTo p q) :
    DecodesTo (a :: b :: c :: d :: p) (byte0 a b :: byte1 b c :: byte2 c d :: q) := by
  refine ⟨by simp only [List.length_cons]; have := h.1; omega, fun n hn => ?_⟩
  rcases Nat.lt_or_ge n 24 with h24 | h24
  · rw [msbBit_eq, digitBit_eq]
    interval_cases n <;> simp [byte0_val ha hb, byte1_val hc, byte2_val hd] <;> omega
  · obtain ⟨m, rfl⟩ := Nat.exists_eq_add_of_le h24
    rw [msbBit_shift, digitBit_shift]
    exact h.2 m (by simp only [List.length_cons] at hn; omega)

theorem outcome_loop (e : List UInt8) : DecodeOutcome e (decodeLoop e) := by
  induction e using decodeLoop.induct with
  | case1 => exact ⟨[], rfl, rfl, fun n hn => by simp at hn⟩
  | case2 a =>
    unfold DecodeOutcome
    cases ha : isAlpha a with
    | true => simp [decodeLoop, List.takeWhile, ha, (digit_symb a ha).2.1]
    | false => simp [decodeLoop, List.takeWhile, ha, (symb_cases a).2 ha]
  | case3 a b =>
    unfold DecodeOutcome
    cases ha : isAlpha a with
    | true =>
      cases hb : isAlpha b with
      | true => simp [decodeLoop, List.takeWhile, ha, hb, (digit_symb a ha).2.1, (digit_symb b hb).2.1]
      | false => simp [decodeLoop, List.takeWhile, ha, hb, (digit_symb a ha).2.1, (symb_cases b).2 hb]
    | false => simp [decodeLoop, List.takeWhile, ha, (symb_cases a).2 ha]
  | case4 a b c =>
    unfold DecodeOutcome
    cases ha : isAlpha a with
    | true =>
      have ha' := digit_symb a ha
      cases hb : isAlpha b with
      | true =>
        have hb' := digit_symb b hb
        cases hc : isAlpha c with
        | true =>
          have hc' := digit_symb c hc
          simp [decodeLoop, List.takeWhile, ha, hb, hc, ha'.2.1, hb'.2.1, hc'.2.1, hc'.2.2]
        | false =>
          cases hn : notPad c with
          | true =>
            have := mt (notPad_iff c).2 (by simp [hn])
            simp [decodeLoop, List.takeWhile, ha, hb, hc, hn, ha'.2.1, hb'.2.1, (symb_cases c).2 hc, this]
          | false =>
            have := (notPad_iff c).1 hn
            simp only [decodeLoop, List.takeWhile, ha, hb, hc, hn, ha'.2.1, hb'.2.1, Res.ok_bind]
            simp only [List.length_cons, List.length_nil, List.drop_succ_cons, List.drop_zero, this, and_true,
              Nat.reduceAdd, Nat.reduceMod, le_refl, if_true]
            exact ⟨_, rfl, decodes_two ha'.1 hb'.1⟩
      | false => simp [decodeLoop, List.takeWhile, ha, hb, ha'.2.1, (symb_cases b).2 hb]
    | false => simp [decodeLoop, List.takeWhile, ha, (symb_cases a).2 ha]
  | case5 a b c d rest ih =>
    cases ha : isAlpha a with
    | false => unfold DecodeOutcome; simp [decodeLoop, List.takeWhile, ha, (symb_cases a).2 ha]
    | true =>
    have ha' := digit_symb a ha
    cases hb : isAlpha b with
    | false => unfold DecodeOutcome; simp [decodeLoop, List.takeWhile, ha, hb, ha'.2.1, (symb_cases b).2 hb]
    | true =>
    have hb' := digit_symb b hb
    cases hc : isAlpha c with
    | false =>
      unfold DecodeOutcome
      cases hn : notPad c with
      | true =>
        have := mt (notPad_iff c).2 (by simp [hn])
        simp [decodeLoop, List.takeWhile, ha, hb, hc, hn, ha'.2.1, hb'.2.1, (symb_cases c).2 hc, this]
      | false =>
        have := (notPad_iff c).1 hn
        simp only [decodeLoop, List.takeWhile, ha, hb, hc, hn, ha'.2.1, hb'.2.1, Res.ok_bind]
        simp only [List.length_cons, List.length_nil, List.drop_succ_cons, List.drop_zero, this, and_true,
          Nat.reduceAdd, Nat.reduceMod, le_refl, if_true]
        exact ⟨_, rfl, decodes_two ha'.1 hb'.1⟩
    | true =>
    have hc' := digit_symb c hc
    cases hd : isAlpha d with
    | false =>
      unfold DecodeOutcome
      cases hn : notPad d with
      | true =>
        have := mt (notPad_iff d).2 (by simp [hn])
        simp [decodeLoop, List.takeWhile, ha, hb, hc, hd, hn, ha'.2.1, hb'.2.1, hc'.2.1, hc'.2.2, (symb_cases d).2 hd, this]
      | false =>
        have := (notPad_iff d).1 hn
        simp only [decodeLoop, List.takeWhile, ha, hb, hc, hd, hn, ha'.2.1, hb'.2.1, hc'.2.1, hc'.2.2, Res.ok_bind]
        simp only [List.length_cons, List.length_nil, List.drop_succ_cons, List.drop_zero, this, and_true,
          Nat.reduceAdd, Nat.reduceMod, Nat.reduceLeDiff, if_true]
        exact ⟨_, rfl, decodes_three ha'.1 hb'.1 hc'.1⟩
    | true =>
    have hd' := digit_symb d hd
    have hl : decodeLoop (a :: b :: c :: d :: rest) =
        (decodeLoop rest >>= fun r => .ok (byte0 a b :: byte1 b c :: byte2 c d :: r)) := by
      simp only [decodeLoop, ha'.2.1, hb'.2.1, hc'.2.1, hd'.2.1, hc'.2.2, hd'.2.2, Res.ok_bind, if_true]
      rfl
    have ht : (a :: b :: c :: d :: rest).takeWhile isAlpha = a :: b :: c :: d :: rest.takeWhile isAlpha := by
      simp [List.takeWhile, ha, hb, hc, hd]
    rw [hl]
    unfold DecodeOutcome at ih ⊢
    dsimp only at ih ⊢
    rw [ht]
    simp only [List.length_cons, List.drop_succ_cons, Nat.add_mod_right, show ∀ n : Nat, n + 1 + 1 + 1 + 1 = n + 4 from fun _ => rfl]
    split at ih
    · split_ifs at ih ⊢
      · obtain ⟨q, hq, hq'⟩ := ih
        exact ⟨_, by rw [hq]; rfl, decodes_four ha'.1 hb'.1 hc'.1 hd'.1 hq'⟩
      · rw [ih]; rfl
    · split_ifs at ih ⊢
      · obtain ⟨q, hq, hq'⟩ := ih
        exact ⟨_, by rw [hq]; rfl, decodes_four ha'.1 hb'.1 hc'.1 hd'.1 hq'⟩
      · rw [ih]; rfl

/-- **C20** The outcome of decoding every non-empty text whatsoever, with both alphabets. -/
theorem C20_exact (e : List UInt8) (he : e ≠ []) (t : EncodeType) (ht : t = .standard ∨ t = .url) :
    DecodeOutcome e (base64Decode e t) := by
  have : base64Decode e t = decodeLoop e := by rcases ht with rfl | rfl <;> simp [base64Decode, standardDecode, he]
  rw [this]
  exact outcome_loop e

/-- **C20** The same for PEM and MIME, after all CR and LF have been removed; a text of nothing else throws `invalid_argument`. -/
theorem C20_exact_lines (e : List UInt8) (t : EncodeType) (ht : t = .pem ∨ t = .mime) :
    (e.filter (fun c => c ≠ 10 ∧ c ≠ 13) = [] → base64Decode e t = .throw .invalidArgument) ∧
    (e.filter (fun c => c ≠ 10 ∧ c ≠ 13) ≠ [] → DecodeOutcome (e.filter fun c => c ≠ 10 ∧ c ≠ 13) (base64Decode e t)) := by
  have h1 : base64Decode e t = standardDecode (e.filter fun c => c ≠ 10 ∧ c ≠ 13) := by
    have : (e.filter (· != 10)).filter (· != 13) = e.filter fun c => c ≠ 10 ∧ c ≠ 13 := by
      rw [List.filter_filter]
      exact List.filter_congr fun c _ => by by_cases h : c = 10 <;> by_cases h2 : c = 13 <;> simp [h, h2]
    rcases ht with rfl | rfl <;> simp only [base64Decode, decodeWithSeparators, this]
  rw [h1]
  constructor
  · intro h; rw [h]; rfl
  · intro h; simp only [standardDecode, if_neg h]; exact outcome_loop _

/-- C20 at work: six digits and a padding character in the third place of the second group, then garbage -/
example : ∃ d, base64Decode [81, 85, 74, 68, 82, 65, 61, 33, 7] .standard = .ok d ∧ d = [65, 66, 67, 68] := ⟨_, rfl, rfl⟩
/-- … a padding character in the second place -/
example : base64Decode [81, 61, 61, 61] .standard = .throw .runtimeError := rfl

end Verif.Props
