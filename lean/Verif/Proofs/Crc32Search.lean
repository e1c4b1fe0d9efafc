import Verif.Proofs.Crc32Order

/-!
Three flipped bits: the first 91639 states of the CRC shift register, started with 1, do not contain two whose exclusive or
is 1.  The search for such a pair is a function on lists (two lists are shown disjoint by splitting both by one bit after the
other); that it finds none is computed by the kernel, and that its answer means what is claimed is proved below.
The functions are written with recursors, so that the kernel evaluates them in linear time.
-/

namespace Verif.Crc32
open Spec

/-- run the register `n` times from `u`; collect the halves of the even states and of the odd states -/
noncomputable def gen3 (n : Nat) : Nat → List Nat → List Nat → (List Nat → List Nat → Bool) → Bool :=
  Nat.rec (fun _ a b k => k a b) (fun _ ih u a b k =>
    Nat.rec (Nat.rec false (fun v _ => ih v (v :: a) b k) (Nat.add (Nat.shiftRight u 1) 1))
      (fun _ _ => Nat.rec false (fun v _ => ih (Nat.xor v 0xEDB88320) a (v :: b) k) (Nat.add (Nat.shiftRight u 1) 1)) (Nat.land u 1)) n

/-- split a list by the bit in the mask `m` -/
noncomputable def split3 (m : Nat) (l : List Nat) : List Nat → List Nat → (List Nat → List Nat → Bool) → Bool :=
  List.rec (fun a b k => k a b) (fun x _ ih a b k => Nat.rec (ih (x :: a) b k) (fun _ _ => ih a (x :: b) k) (Nat.land x m)) l

/-- the lists have no common element -/
noncomputable def disj3 (fuel : Nat) : Nat → List Nat → List Nat → Bool :=
  Nat.rec (fun _ _ _ => false) (fun _ ih m A B =>
    List.rec true (fun _ _ _ => List.rec true (fun _ _ _ =>
      split3 m A [] [] fun A0 A1 => split3 m B [] [] fun B0 B1 =>
       Nat.rec false (fun m' _ => Bool.rec false (ih (Nat.succ m') A1 B1) (ih (Nat.succ m') A0 B0)) (Nat.mul m 2)) B) A) fuel

theorem gen3_spec (n : Nat) : ∀ (u : Nat) (a b : List Nat) (k : List Nat → List Nat → Bool), gen3 n u a b k = true →
    ∃ A B, k A B = true ∧ (∀ x ∈ a, x ∈ A) ∧ (∀ x ∈ b, x ∈ B) ∧
      ∀ i < n, (crcBits i u % 2 = 0 → crcBits i u / 2 ∈ A) ∧ (crcBits i u % 2 = 1 → crcBits i u / 2 ∈ B) := by
  induction n with
  | zero =>
    intro u a b k h
    exact ⟨a, b, h, fun _ => id, fun _ => id, fun i hi => absurd hi (Nat.not_lt_zero i)⟩
  | succ n ih =>
    intro u a b k h
    have hand : Nat.land u 1 = u % 2 := Nat.and_one_is_mod u
    have hsh : Nat.add (Nat.shiftRight u 1) 1 = u / 2 + 1 := by
      show u >>> 1 + 1 = _
      rw [Nat.shiftRight_eq_div_pow]
    have e : gen3 (n + 1) u a b k =
        Nat.rec (motive := fun _ => Bool) (Nat.rec (motive := fun _ => Bool) false (fun v _ => gen3 n v (v :: a) b k) (Nat.add (Nat.shiftRight u 1) 1))
          (fun _ _ => Nat.rec (motive := fun _ => Bool) false (fun v _ => gen3 n (Nat.xor v 0xEDB88320) a (v :: b) k) (Nat.add (Nat.shiftRight u 1) 1))
          (Nat.land u 1) := rfl
    rw [e, hand, hsh] at h
    rcases Nat.mod_two_eq_zero_or_one u with h2 | h2
    · rw [h2] at h
      have h : gen3 n (u / 2) (u / 2 :: a) b k = true := h
      have hc : crcBit u = u / 2 := by unfold crcBit; rw [if_neg (by omega)]
      obtain ⟨A, B, hk, hA, hB, hi⟩ := ih _ _ _ _ h
      refine ⟨A, B, hk, fun x hx => hA x (List.mem_cons_of_mem _ hx), hB, fun i hin => ?_⟩
      cases i with
      | zero => exact ⟨fun _ => hA _ (List.mem_cons_self ..), fun h1 => by simp only [crcBits] at h1; omega⟩
      | succ i =>
        have := hi i (by omega)
        simp only [crcBits, hc]
        exact this
    · rw [h2] at h
      have h : gen3 n (u / 2 ^^^ 0xEDB88320) a (u / 2 :: b) k = true := h
      have hc : crcBit u = u / 2 ^^^ 0xEDB88320 := by unfold crcBit; rw [if_pos h2]
      obtain ⟨A, B, hk, hA, hB, hi⟩ := ih _ _ _ _ h
      refine ⟨A, B, hk, hA, fun x hx => hB x (List.mem_cons_of_mem _ hx), fun i hin => ?_⟩
      cases i with
      | zero => exact ⟨fun h1 => by simp only [crcBits] at h1; omega, fun _ => hB _ (List.mem_cons_self ..)⟩
      | succ i =>
        have := hi i (by omega)
        simp only [crcBits, hc]
        exact this

theorem split3_spec (m : Nat) (l : List Nat) : ∀ (a b : List Nat) (k : List Nat → List Nat → Bool), split3 m l a b k = true →
    ∃ A B, k A B = true ∧ (∀ x ∈ a, x ∈ A) ∧ (∀ x ∈ b, x ∈ B) ∧ ∀ x ∈ l, (x &&& m = 0 → x ∈ A) ∧ (x &&& m ≠ 0 → x ∈ B) := by
  induction l with
  | nil => intro a b k h; exact ⟨a, b, h, fun _ => id, fun _ => id, fun x hx => absurd hx List.not_mem_nil⟩
  | cons y l ih =>
    intro a b k h
    have e : split3 m (y :: l) a b k = Nat.rec (motive := fun _ => Bool) (split3 m l (y :: a) b k) (fun _ _ => split3 m l a (y :: b) k) (y &&& m) := rfl
    rw [e] at h
    cases hy : y &&& m with
    | zero =>
      rw [hy] at h
      obtain ⟨A, B, hk, hA, hB, hx⟩ := ih _ _ _ h
      refine ⟨A, B, hk, fun x hx => hA x (List.mem_cons_of_mem _ hx), hB, fun x hm => ?_⟩
      rcases List.mem_cons.1 hm with rfl | hm
      · exact ⟨fun _ => hA _ (List.mem_cons_self ..), fun hn => absurd hy hn⟩
      · exact hx x hm
    | succ z =>
      rw [hy] at h
      obtain ⟨A, B, hk, hA, hB, hx⟩ := ih _ _ _ h
      refine ⟨A, B, hk, hA, fun x hx => hB x (List.mem_cons_of_mem _ hx), fun x hm => ?_⟩
      rcases List.mem_cons.1 hm with rfl | hm
      · exact ⟨fun h0 => by omega, fun _ => hB _ (List.mem_cons_self ..)⟩
      · exact hx x hm

theorem disj3_spec (f : Nat) : ∀ (m : Nat) (A B : List Nat), disj3 f m A B = true → ∀ x ∈ A, x ∉ B := by
  induction f with
  | zero => intro m A B h; exact absurd h Bool.false_ne_true
  | succ f ih =>
    intro m A B h
    cases A with
    | nil => intro x hx; exact absurd hx List.not_mem_nil
    | cons p A =>
    cases B with
    | nil => intro x _; exact List.not_mem_nil
    | cons q B =>
      have e : disj3 (f + 1) m (p :: A) (q :: B) = (split3 m (p :: A) [] [] fun A0 A1 => split3 m (q :: B) [] [] fun B0 B1 =>
          Nat.rec (motive := fun _ => Bool) false (fun m' _ => Bool.rec (motive := fun _ => Bool) false (disj3 f (Nat.succ m') A1 B1)
            (disj3 f (Nat.succ m') A0 B0)) (Nat.mul m 2)) := rfl
      rw [e] at h
      obtain ⟨A0, A1, h, _, _, hA⟩ := split3_spec _ _ _ _ _ h
      obtain ⟨B0, B1, h, _, _, hB⟩ := split3_spec _ _ _ _ _ h
      intro x hx hx'
      cases hm : Nat.mul m 2 with
      | zero => rw [hm] at h; exact absurd h Bool.false_ne_true
      | succ m' =>
        rw [hm] at h
        have h : Bool.rec (motive := fun _ => Bool) false (disj3 f (Nat.succ m') A1 B1) (disj3 f (Nat.succ m') A0 B0) = true := h
        cases h0 : disj3 f (Nat.succ m') A0 B0 with
        | false => rw [h0] at h; exact absurd h Bool.false_ne_true
        | true =>
          rw [h0] at h
          have h : disj3 f (Nat.succ m') A1 B1 = true := h
          by_cases hz : x &&& m = 0
          · exact ih _ _ _ h0 x ((hA x hx).1 hz) ((hB x hx').1 hz)
          · exact ih _ _ _ h x ((hA x hx).2 hz) ((hB x hx').2 hz)

set_option maxRecDepth 1000000 in
theorem search3 : gen3 91639 1 [] [] (fun A B => disj3 33 1 A B) = true := by decide +kernel

end Verif.Crc32
