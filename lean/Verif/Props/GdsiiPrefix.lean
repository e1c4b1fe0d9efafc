import Verif.Proofs.GdsiiPrefix
import Verif.Props.GdsiiAny

/-!
C59: GDSII files that were cut off.
-/

namespace Verif.Props
open Verif Spec.Gdsii

theorem take_range' (n k i : Nat) : (List.range' n k).take i = List.range' n (min i k) := by
  apply List.ext_getElem
  · simp
  · intro j h1 h2
    simp

theorem subset_prefix {n : Nat} {k k' : Nat} {a b e e' : List Nat} (h : a ++ e = List.range' n k) (h' : b ++ e' = List.range' n k')
    (hs : ∀ x ∈ a, x ∈ b) : a <+: b := by
  have ha : a = List.range' n a.length := by
    have := congrArg (List.take a.length) h
    rw [List.take_left, take_range'] at this
    have hl := congrArg List.length h
    rw [List.length_append, List.length_range'] at hl
    rwa [Nat.min_eq_left (by omega)] at this
  have hb : b = List.range' n b.length := by
    have := congrArg (List.take b.length) h'
    rw [List.take_left, take_range'] at this
    have hl := congrArg List.length h'
    rw [List.length_append, List.length_range'] at hl
    rwa [Nat.min_eq_left (by omega)] at this
  have hle : a.length ≤ b.length := by
    by_contra hc
    have hm : n + b.length ∈ a := by rw [ha, List.mem_range'_1]; omega
    have := hs _ hm
    rw [hb, List.mem_range'_1] at this
    simp at this
  rw [ha, hb]
  have := take_range' n b.length a.length
  rw [Nat.min_eq_left hle] at this
  rw [← this]
  exact List.take_prefix _ _

/-- **C59** A file that is cut off at any point is read with undefined behaviour, or without harm: every structure that counts as finished is one the whole
file has too, in the same library, at the same place and with exactly the same contents; none before it is missing. -/
theorem C59_prefix (env : Gds.Env) (content cut : List UInt8) (libs : List (Option Library)) (heap : Elements) (next : Nat) (p : Gds.PS)
    (h : parse env (content ++ cut) libs heap next = .ok p) :
    parse env content libs heap next = .ub ∨
    ∃ p' new new', parse env content libs heap next = .ok p' ∧ p.libs = libs ++ new.map some ∧ p'.libs = libs ++ new'.map some ∧
      (∃ l1 l2, new = l1 ++ l2 ∧ List.Forall₂ (fun x y => x.elements <+: y.elements) new' l1) ∧
      elementsOf new' <+: elementsOf new ∧ ∀ a ∈ elementsOf new', p'.heap a = p.heap a := by
  have h0 := inv_start libs heap next ⟨content ++ cut, false⟩
  obtain ⟨new, hi⟩ := Gds.readRecords_inv env _ h0 h
  rcases Gds.prefix_run env _ (content.length + 1) content cut (Nat.lt_succ_self _) h0 hi h (Nat.lt_succ_self _) with h1 | ⟨q, new', h1, h2, h3⟩
  · exact .inl h1
  · refine .inr ⟨q, new, new', h1, hi.libs, h2.libs, h3.libs, ?_, fun a ha => (h3.heap a ha).symm⟩
    refine subset_prefix h2.owned hi.owned fun x hx => ?_
    obtain ⟨l1, l2, rfl, hf⟩ := h3.libs
    rw [Gds.elementsOf_append]
    exact List.mem_append_left _ (Gds.forall₂_mem hf hx)

/-- **C59** In particular: whatever is left of a well-formed file, the elements read are the first structures of the design, complete and correct. -/
theorem C59_design (env : Gds.Env) (hr : env.rnd = Ieee.rne) (d : Design) (hd : d.Fits) (zeros : Nat) (content cut : List UInt8)
    (hc : d.bytes ++ List.replicate zeros 0 = content ++ cut) (heap : Elements) (next : Nat) :
    parse env content [] heap next = .ub ∨
    ∃ p new, parse env content [] heap next = .ok p ∧ p.libs = new.map some ∧ new.length ≤ 1 ∧
      ∃ m ≤ d.structures.length, elementsOf new = List.range' next m ∧
        ∀ (i : Nat) (h : i < m), ∃ s, d.structures[i]? = some s ∧ p.heap (next + i) = s.element := by
  obtain ⟨p, h1, h2, h3⟩ := C53_parse env hr d hd zeros [] heap next
  rw [hc] at h1
  rcases C59_prefix env content cut [] heap next p h1 with h | ⟨p', new, new', h4, h5, h6, ⟨l1, l2, h7, h8⟩, h9, h10⟩
  · exact .inl h
  · right
    have hnew : new = [d.library next] := by
      rw [h2, List.nil_append, List.nil_append] at h5
      exact ((List.map_injective_iff.2 (Option.some_injective _)) (a₁ := [d.library next]) h5).symm
    have hel : elementsOf new = List.range' next d.structures.length := by
      rw [hnew]; simp [elementsOf, Design.library]
    refine ⟨p', new', h4, by rw [h6, List.nil_append], ?_, ?_⟩
    · rw [h8.length_eq]
      have := congrArg List.length h7
      rw [hnew, List.length_append] at this
      simp only [List.length_cons, List.length_nil] at this
      omega
    · rw [hel] at h9
      have hlen : (elementsOf new').length ≤ d.structures.length := by
        have := h9.length_le
        rwa [List.length_range'] at this
      have hel' : elementsOf new' = List.range' next (elementsOf new').length := by
        have := (List.prefix_iff_eq_take.1 h9)
        rw [take_range', Nat.min_eq_left hlen] at this
        exact this
      refine ⟨(elementsOf new').length, hlen, hel', fun i hi => ?_⟩
      have hi' : i < d.structures.length := by omega
      refine ⟨d.structures[i], by simp, ?_⟩
      rw [h10 _ (by rw [hel', List.mem_range'_1]; omega), h3]
      unfold storeFrom
      rw [if_neg (by omega)]
      have : next + i - next = i := by omega
      rw [this]
      simp [hi']

set_option maxRecDepth 100000 in
/-- C59 at work: the sample of C53, cut off inside its second structure; the first one is there. -/
example : ∃ content cut, sample.bytes = content ++ cut ∧ ∃ p, parse emptyEnv content [] (fun _ => {}) 10 = .ok p ∧
    p.elem = some 11 ∧ (p.heap 10).name = [83] ∧ (p.heap 10).geometries.length = 2 ∧ (p.heap 10).min = ⟨-7, 0⟩ := by
  refine ⟨sample.bytes.take 336, sample.bytes.drop 336, (List.take_append_drop _ _).symm, ?_⟩
  refine ⟨_, rfl, ?_⟩
  decide

end Verif.Props
