import Verif.Model.GdsiiReader

/-! Lemmas about the layer enumeration of the GDSII reader. -/

namespace Verif.Gds
open Verif

theorem swapStep_eq (a b : Layer) :
    swapStep a b = ({ a with layer := min a.layer b.layer }, { b with layer := max a.layer b.layer }) := by
  unfold swapStep
  by_cases h : b.layer < a.layer
  · rw [if_pos h]
    have h1 : min a.layer b.layer = b.layer := by omega
    have h2 : max a.layer b.layer = a.layer := by omega
    dsimp only
    rw [if_neg (by rintro ⟨h3, _⟩; omega), h1, h2]
  · rw [if_neg h]
    have h1 : min a.layer b.layer = a.layer := by omega
    have h2 : max a.layer b.layer = b.layer := by omega
    dsimp only
    rw [h1, h2]
    split
    · rename_i h3
      rw [h3.1]
    · rfl

/-- one pass on the numbers alone -/
def numPass : Int → List Int → List Int
  | a, [] => [a]
  | a, b :: t => min a b :: numPass (max a b) t

theorem sortPass_layer (a : Layer) (t : List Layer) : (sortPass a t).map Layer.layer = numPass a.layer (t.map Layer.layer) := by
  induction t generalizing a with
  | nil => rfl
  | cons b t ih =>
    simp only [sortPass, swapStep_eq, List.map_cons, numPass, ih]

theorem sortPass_rest {α : Type} (f : Layer → α) (hf : ∀ (l : Layer) n, f { l with layer := n } = f l) (a : Layer) (t : List Layer) :
    (sortPass a t).map f = f a :: t.map f := by
  induction t generalizing a with
  | nil => rfl
  | cons b t ih =>
    simp only [sortPass, swapStep_eq, List.map_cons, ih, hf]

theorem sortPass_length (a : Layer) (t : List Layer) : (sortPass a t).length = t.length + 1 := by
  have := congrArg List.length (sortPass_rest (fun _ => ()) (fun _ _ => rfl) a t)
  simpa using this

theorem sortPasses_rest {α : Type} (f : Layer → α) (hf : ∀ (l : Layer) n, f { l with layer := n } = f l) (n : Nat) (ls : List Layer) :
    (sortPasses n ls).map f = ls.map f := by
  induction n generalizing ls with
  | zero => rfl
  | succ n ih =>
    cases ls with
    | nil => rfl
    | cons a t => rw [sortPasses, ih, sortPass_rest f hf, List.map_cons]

theorem numPass_perm (a : Int) (t : List Int) : (numPass a t).Perm (a :: t) := by
  induction t generalizing a with
  | nil => exact .refl _
  | cons b t ih =>
    rw [numPass]
    have h := (ih (max a b)).cons (min a b)
    rcases le_total a b with hab | hab
    · rw [min_eq_left hab, max_eq_right hab] at h
      rw [min_eq_left hab, max_eq_right hab]
      exact h
    · rw [min_eq_right hab, max_eq_left hab] at h
      rw [min_eq_right hab, max_eq_left hab]
      exact h.trans (.swap _ _ _)

theorem numPass_last (a : Int) (t : List Int) : ∃ w m, numPass a t = w ++ [m] ∧ (∀ x ∈ w, x ≤ m) ∧ a ≤ m := by
  induction t generalizing a with
  | nil => exact ⟨[], a, rfl, by simp, le_refl _⟩
  | cons b t ih =>
    obtain ⟨w, m, h1, h2, h3⟩ := ih (max a b)
    refine ⟨min a b :: w, m, by rw [numPass, h1]; rfl, ?_, by omega⟩
    intro x hx
    rcases List.mem_cons.1 hx with rfl | hx
    · omega
    · exact h2 x hx

theorem numPass_sorted (a : Int) (t : List Int) (h : (a :: t).Pairwise (· ≤ ·)) : numPass a t = a :: t := by
  induction t generalizing a with
  | nil => rfl
  | cons b t ih =>
    have hab : a ≤ b := (List.pairwise_cons.1 h).1 b (by simp)
    rw [numPass, min_eq_left hab, max_eq_right hab, ih b (List.pairwise_cons.1 h).2]

theorem numPass_append (a : Int) (t s : List Int) (hs : s.Pairwise (· ≤ ·)) (ha : ∀ y ∈ s, a ≤ y)
    (ht : ∀ x ∈ t, ∀ y ∈ s, x ≤ y) : numPass a (t ++ s) = numPass a t ++ s := by
  induction t generalizing a with
  | nil => exact numPass_sorted a s (List.pairwise_cons.2 ⟨ha, hs⟩)
  | cons b t ih =>
    rw [List.cons_append, numPass, numPass, ih (max a b) (fun y hy => max_le (ha y hy) (ht b (by simp) y hy))
      (fun x hx => ht x (List.mem_cons_of_mem _ hx)), List.cons_append]

/-- `n` passes -/
def numPasses : Nat → List Int → List Int
  | 0, l => l
  | _ + 1, [] => []
  | n + 1, a :: t => numPasses n (numPass a t)

theorem sortPasses_layer (n : Nat) (ls : List Layer) : (sortPasses n ls).map Layer.layer = numPasses n (ls.map Layer.layer) := by
  induction n generalizing ls with
  | zero => rfl
  | succ n ih =>
    cases ls with
    | nil => rfl
    | cons a t => rw [sortPasses, ih, sortPass_layer]; rfl

theorem numPasses_perm (n : Nat) (l : List Int) : (numPasses n l).Perm l := by
  induction n generalizing l with
  | zero => exact .refl _
  | succ n ih =>
    cases l with
    | nil => exact .refl _
    | cons a t => exact (ih _).trans (numPass_perm a t)

/-- when all but the first `n` elements are in place, `n` passes sort the list -/
theorem numPasses_sorted (n : Nat) (u s : List Int) (hn : u.length ≤ n) (hs : s.Pairwise (· ≤ ·)) (hu : ∀ x ∈ u, ∀ y ∈ s, x ≤ y) :
    (numPasses n (u ++ s)).Pairwise (· ≤ ·) := by
  induction n generalizing u s with
  | zero =>
    have : u = [] := List.length_eq_zero_iff.1 (by omega)
    subst this
    exact hs
  | succ n ih =>
    cases u with
    | nil =>
      cases s with
      | nil => exact List.Pairwise.nil
      | cons a t =>
        rw [List.nil_append, numPasses, numPass_sorted a t hs]
        exact ih [] (a :: t) (by simp) hs (by simp)
    | cons a t =>
      rw [List.cons_append, numPasses, numPass_append a t s hs (hu a (by simp)) (fun x hx => hu x (List.mem_cons_of_mem _ hx))]
      obtain ⟨w, m, h1, h2, _⟩ := numPass_last a t
      have hp := numPass_perm a t
      have hl : w.length = t.length := by
        have := hp.length_eq
        rw [h1] at this
        simpa using this
      have hm : ∀ y ∈ s, m ≤ y := fun y hy => hu m (hp.mem_iff.1 (by rw [h1]; simp)) y hy
      have hw : ∀ x ∈ w, ∀ y ∈ s, x ≤ y := fun x hx y hy => hu x (hp.mem_iff.1 (by rw [h1]; simp [hx])) y hy
      rw [h1, List.append_assoc]
      refine ih w ([m] ++ s) (by rw [hl]; simpa using hn) (List.pairwise_cons.2 ⟨hm, hs⟩) ?_
      intro x hx y hy
      rcases List.mem_append.1 hy with hy | hy
      · rw [List.mem_singleton.1 hy]; exact h2 x hx
      · exact hw x hx y hy

theorem numPasses_fixed (n : Nat) (l : List Int) (h : l.Pairwise (· ≤ ·)) : numPasses n l = l := by
  induction n generalizing l with
  | zero => rfl
  | succ n ih =>
    cases l with
    | nil => rfl
    | cons a t => rw [numPasses, numPass_sorted a t h]; exact ih _ h

end Verif.Gds
