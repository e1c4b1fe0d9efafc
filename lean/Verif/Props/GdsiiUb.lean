import Verif.Proofs.GdsiiUb
import Verif.Props.GdsiiAny

/-!
C60: which GDSII files can make the reader undefined.  `env.mem` gives the eight bytes of a `double` in memory.
-/

namespace Verif.Props
open Verif Spec.Gdsii

/-- **C60** There are only two causes: somewhere in the file the four bytes of the least 32-bit number, or an end that comes too early for the data of
something that looks like a record. -/
theorem C60_causes (env : Gds.Env) (hm : ∀ x, (env.mem x).length = 8) (content : List UInt8) (libs : List (Option Library)) (heap : Elements) (next : Nat)
    (h : parse env content libs heap next = .ub) : CutShort content ∨ leastBytes <:+: content :=
  Gds.readRecords_ub env hm (inv_start libs heap next ⟨content, false⟩) _ h

theorem need_le (t : UInt8) (n : Nat) (hn : n < 65536) : need t n ≤ 65528 := by
  unfold need
  split
  · omega
  · split
    · omega
    · split
      · omega
      · split <;> omega

/-- **C60** So any file followed by at least 65532 zero bytes can be read, unless the four bytes occur: no record can run over the end. -/
theorem C60_padded (env : Gds.Env) (hm : ∀ x, (env.mem x).length = 8) (content : List UInt8) (zeros : Nat) (hz : 65532 ≤ zeros)
    (hl : ¬ leastBytes <:+: content ++ List.replicate zeros 0) (libs : List (Option Library)) (heap : Elements) (next : Nat) :
    ∃ p, parse env (content ++ List.replicate zeros 0) libs heap next = .ok p := by
  cases h : parse env (content ++ List.replicate zeros 0) libs heap next with
  | ok p => exact ⟨p, rfl⟩
  | throw e => exact absurd h ((C57_outcome env _ _ _ _ _ (Nat.lt_succ_self _)).2.1 e)
  | ub =>
    rcases C60_causes env hm _ _ _ _ h with ⟨before, rest, hi, lo, t, d, he, hlt⟩ | h
    · exfalso
      have hn := need_le t ((256 * hi.toNat + lo.toNat + 65532) % 65536) (Nat.mod_lt _ (by omega))
      have hlen := congrArg List.length he
      simp only [List.length_append, List.length_replicate, List.length_cons] at hlen
      have ht : (content ++ List.replicate zeros 0)[before.length + 2]? = some t := by
        rw [he, List.getElem?_append_right (by omega)]
        have : before.length + 2 - before.length = 2 := by omega
        rw [this]; rfl
      rw [List.getElem?_append_right (by omega), List.getElem?_replicate, if_pos (by omega)] at ht
      have := Option.some.inj ht
      subst this
      have : need 0 ((256 * hi.toNat + lo.toNat + 65532) % 65536) = 0 := rfl
      omega
    · exact absurd h hl

/-- C60 at work: the odd file of C57 followed by 65532 zeros. -/
example : ∃ p, parse emptyEnv (odd ++ List.replicate 65532 0) [] (fun _ => {}) 0 = .ok p := by
  refine C60_padded emptyEnv (fun _ => by simp [emptyEnv]) odd 65532 (Nat.le_refl _) ?_ [] _ 0
  intro h
  have h80 : (0x80 : UInt8) ∈ odd ++ List.replicate 65532 0 := h.subset (by simp [leastBytes])
  rcases List.mem_append.1 h80 with h | h
  · revert h; decide
  · rw [List.mem_replicate] at h; exact absurd h.2 (by decide)

/-- **C60** Both causes do occur.  A file that ends inside the dates of its library is always undefined, -/
theorem C60_cut_in_dates (env : Gds.Env) (version : Int) (dates : List UInt8) (d : UInt8) (hd : dates.length < 24) (libs : List (Option Library))
    (heap : Elements) (next : Nat) :
    parse env (record 0x00 2 (be16 version) ++ ([0, 28, 1, d] ++ dates)) libs heap next = .ub := by
  unfold parse
  have hlen : (record 0x00 2 (be16 version) ++ ([0, 28, 1, d] ++ dates)).length + 1 = (dates.length + 9) + 1 + 1 := by
    simp only [List.length_append, record, be16, List.length_cons, List.length_nil]
    omega
  rw [hlen]
  have hs := Gds.record_step env 0x00 2 (be16 version) (by rw [Gds.be16_length]; omega) (dates.length + 9 + 1)
    { file := ⟨[], false⟩, libs := libs, heap := heap, next := next } ([0, 28, 1, d] ++ dates)
  dsimp only at hs
  refine hs.trans ?_
  have hh : ∀ p : Gds.PS, p.file = ⟨be16 version ++ ([0, 28, 1, d] ++ dates), false⟩ →
      Gds.dispatch env ⟨(be16 version).length, 0x00⟩ p = .ok { p with file := ⟨[0, 28, 1, d] ++ dates, false⟩ } := by
    intro p hp
    show Gds.secHeader p = _
    unfold Gds.secHeader Gds.readWord
    rw [hp]
    rfl
  rw [hh _ rfl, Res.ok_bind, Gds.readRecords]
  simp only [Bool.false_eq_true, if_false, List.cons_append, List.nil_append]
  have hb : ∀ r : Gds.Rec, r.recordType = 1 → ∀ p : Gds.PS, p.file = ⟨dates, false⟩ → p.lib = none → Gds.dispatch env r p = .ub := by
    intro r hr p hp hl
    unfold Gds.dispatch
    rw [hr]
    show Gds.secBgnLib p = _
    unfold Gds.secBgnLib Gds.readDates
    rw [hl]
    simp only [Option.isSome_none, Bool.false_eq_true, if_false]
    rw [hp, if_pos (.inr hd)]
    rfl
  rw [hb _ rfl _ rfl rfl]
  rfl

set_option maxRecDepth 20000 in
/-- C60 at work: `-2147483648` as the second coordinate of a text, in an otherwise well-formed, complete file. -/
example : ∃ content, leastBytes <:+: content ∧ parse emptyEnv content [] (fun _ => {}) 0 = .ub := by
  refine ⟨record 0x01 2 (List.replicate 24 0) ++ record 0x05 2 (List.replicate 24 0) ++ record 0x0C 0 [] ++ record 0x10 3 [0, 0, 0, 1, 0x80, 0, 0, 0] ++
    record 0x11 0 [] ++ record 0x07 0 [] ++ record 0x04 0 [], ?_, rfl⟩
  decide

end Verif.Props
