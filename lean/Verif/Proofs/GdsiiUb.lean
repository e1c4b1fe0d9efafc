import Verif.Proofs.GdsiiAny

/-! Where the record loop of the GDSII reader can be undefined. -/

namespace Verif.Gds
open Verif Spec.Gdsii

theorem recLength_eq (b0 b1 : UInt8) : recLength b0 b1 = (256 * b0.toNat + b1.toNat + 65532) % 65536 := by
  have h0 := b0.toNat_lt
  have h1 := b1.toNat_lt
  have hw : (wordOf [b0, b1]).toNat = b0.toNat + 256 * b1.toNat := by
    unfold wordOf
    rw [word_toNat]
    simp
  have e : (normalizeWord (wordOf [b0, b1])).toNat = 256 * b0.toNat + b1.toNat := by
    rw [normalizeWord_eq, word_toNat, byte_toNat, byte_toNat, hw]
    omega
  unfold recLength
  rw [BitVec.toNat_sub, e]
  simp only [BitVec.toNat_ofNat]
  omega

theorem bind_ub {α β : Type} {x : Res α} {f : α → Res β} (h : (x >>= f) = .ub) : x = .ub ∨ ∃ a, x = .ok a ∧ f a = .ub := by
  cases x with
  | ok a => exact .inr ⟨a, rfl, h⟩
  | throw e => cases h
  | ub => exact .inl rfl

theorem dword_ub4 (b0 b1 b2 b3 : UInt8) (h : normalizeDword (dword b0.toBitVec b1.toBitVec b2.toBitVec b3.toBitVec) = .ub) :
    b0 = 0x80 ∧ b1 = 0 ∧ b2 = 0 ∧ b3 = 0 := by
  rw [normalizeDword_eq] at h
  dsimp only at h
  obtain ⟨e0, e1, e2, e3⟩ := byte_dword b0.toBitVec b1.toBitVec b2.toBitVec b3.toBitVec
  rw [e0, e1, e2, e3] at h
  split at h
  · rename_i hw
    have hn := congrArg BitVec.toNat hw
    rw [dword_toNat] at hn
    have h0 := b0.toBitVec.isLt
    have h1 := b1.toBitVec.isLt
    have h2 := b2.toBitVec.isLt
    have h3 := b3.toBitVec.isLt
    simp only [BitVec.toNat_ofNat] at hn
    refine ⟨?_, ?_, ?_, ?_⟩ <;> apply UInt8.toBitVec_inj.1 <;> apply BitVec.eq_of_toNat_eq
    · show _ = 128; omega
    · show _ = 0; omega
    · show _ = 0; omega
    · show _ = 0; omega
  · cases h

theorem four {bs : List UInt8} (hb : bs.length = 4) : ∃ b0 b1 b2 b3, bs = [b0, b1, b2, b3] := by
  match bs, hb with
  | [b0, b1, b2, b3], _ => exact ⟨b0, b1, b2, b3, rfl⟩

theorem dword_ub {bs : List UInt8} (hb : bs.length = 4) (h : normalizeDword (dwordOf bs) = .ub) : bs = leastBytes := by
  obtain ⟨b0, b1, b2, b3, e⟩ := four hb
  rw [e] at h
  obtain ⟨h0, h1, h2, h3⟩ := dword_ub4 b0 b1 b2 b3 h
  rw [e]
  rw [h0, h1, h2, h3]
  rfl

theorem readDword_ub {old : Int} {rest : List UInt8} (h : readDword old ⟨rest, false⟩ = .ub) : rest.length < 4 ∨ leastBytes <:+: rest := by
  by_cases hl : rest.length < 4
  · exact .inl hl
  · right
    unfold readDword at h
    rcases bind_ub h with h | ⟨a, _, h⟩
    · have e : (rd id 4 (dwordBytes (BitVec.ofInt 32 old)) ⟨rest, false⟩).1 = rest.take 4 := by
        unfold rd
        rw [if_neg (by simp), if_neg (by simpa using hl)]
        simp
      rw [e] at h
      rw [← dword_ub (by rw [List.length_take]; omega) h]
      exact (List.take_prefix 4 rest).isInfix
    · cases h

theorem readCoord_ub {old : Coord} {rest : List UInt8} (h : readCoord old ⟨rest, false⟩ = .ub) : rest.length < 8 ∨ leastBytes <:+: rest := by
  by_cases hl : rest.length < 8
  · exact .inl hl
  · right
    have e : rd id 8 (dwordBytes (BitVec.ofInt 32 old.x) ++ dwordBytes (BitVec.ofInt 32 old.y)) ⟨rest, false⟩ = (rest.take 8, ⟨rest.drop 8, false⟩) := by
      unfold rd
      rw [if_neg (by simp), if_neg (by simpa using hl)]
      simp
    unfold readCoord at h
    rw [e] at h
    dsimp only at h
    rcases bind_ub h with h | ⟨a, _, h⟩
    · rw [← dword_ub (by rw [List.length_take, List.length_take]; omega) h]
      exact ((List.take_prefix _ _).trans (List.take_prefix 8 rest)).isInfix
    · rcases bind_ub h with h | ⟨b, _, h⟩
      · rw [← dword_ub (by rw [List.length_drop, List.length_take]; omega) h]
        exact (List.drop_suffix _ _).isInfix.trans (List.take_prefix 8 rest).isInfix
      · cases h

theorem readCoord_full {old : Coord} {rest : List UInt8} (hl : ¬ rest.length < 8) {x : Coord × Strm} (h : readCoord old ⟨rest, false⟩ = .ok x) :
    x.2 = ⟨rest.drop 8, false⟩ := by
  have e : rd id 8 (dwordBytes (BitVec.ofInt 32 old.x) ++ dwordBytes (BitVec.ofInt 32 old.y)) ⟨rest, false⟩ = (rest.take 8, ⟨rest.drop 8, false⟩) := by
    unfold rd
    rw [if_neg (by simp), if_neg (by simpa using hl)]
    simp
  unfold readCoord at h
  rw [e] at h
  obtain ⟨a, _, h⟩ := bind_ok h
  obtain ⟨b, _, h⟩ := bind_ok h
  cases h
  rfl

theorem readCoords_ub (n : Nat) {old : Coord} {rest : List UInt8} (h : readCoords n old ⟨rest, false⟩ = .ub) :
    rest.length < 8 * n ∨ leastBytes <:+: rest := by
  induction n generalizing old rest with
  | zero => cases h
  | succ n ih =>
    rw [readCoords] at h
    rcases bind_ub h with h | ⟨x, h1, h⟩
    · rcases readCoord_ub h with h | h
      · left; omega
      · exact .inr h
    · by_cases hl : rest.length < 8
      · left; omega
      · rcases bind_ub h with h | ⟨y, h2, h⟩
        · rw [readCoord_full hl h1] at h
          rcases ih h with h | h
          · left; rw [List.length_drop] at h; omega
          · exact .inr (h.trans (List.drop_suffix _ _).isInfix)
        · cases h

theorem readWordNew_ub {rest : List UInt8} (h : readWordNew ⟨rest, false⟩ = .ub) : rest.length < 2 := by
  unfold readWordNew at h
  split at h
  · rename_i hc; simpa using hc
  · cases h

theorem readDates_ub {rest : List UInt8} (h : readDates ⟨rest, false⟩ = .ub) : rest.length < 24 := by
  unfold readDates at h
  split at h
  · rename_i hc; simpa using hc
  · cases h

theorem double_ub {rnd : ℚ → ℚ} {bs : List UInt8} (hl : bs.length = 8) : normalizeDouble rnd bs ≠ .ub := by
  match bs, hl with
  | [b0, b1, b2, b3, b4, b5, b6, b7], _ => intro h; cases h

theorem rd_length {α : Type} (f : UInt8 → α) (n : Nat) (old : List α) (s : Strm) (h : old.length = n) : (rd f n old s).1.length = n := by
  unfold rd
  split
  · exact h
  · split
    · rw [List.length_append, List.length_map, List.length_drop]; omega
    · rw [List.length_map, List.length_take]; omega

theorem joinBoxes_ok (gs : List Geometry) (mm : Coord × Coord) : (gs.map some).foldlM Msk.joinBox mm ≠ .ub := by
  induction gs generalizing mm with
  | nil => intro h; cases h
  | cons g gs ih =>
    rw [List.map_cons, List.foldlM_cons]
    intro h
    rcases bind_ub h with h | ⟨a, _, h⟩
    · unfold Msk.joinBox at h; cases h
    · exact ih _ h

theorem elemBox_ok {e : Element} (h : Open e) : elemBox e ≠ .ub := by
  obtain ⟨gs, hg, _⟩ := h.geometries
  unfold elemBox
  rw [hg]
  cases gs with
  | nil => intro h; cases h
  | cons g gs =>
    intro h
    rcases bind_ub h with h | ⟨a, _, h⟩
    · exact joinBoxes_ok gs _ h
    · cases h

/-- where a record can be undefined -/
theorem dispatch_ub {base : List (Option Library)} {heap0 : Elements} {n0 : Nat} {p : PS} {ls : List Library} (env : Env)
    (hm : ∀ x, (env.mem x).length = 8) (hi : Inv base heap0 n0 p ls) (r : Rec) (rest : List UInt8)
    (h : dispatch env r { p with file := ⟨rest, false⟩ } = .ub) :
    rest.length < need r.recordType r.length ∨ leastBytes <:+: rest := by
  have nx : ∀ {α : Type} {a : α} {P : Prop}, (Res.ok a = .ub) → P := fun h => by cases h
  unfold dispatch at h
  split at h <;> rename_i ht
  · cases h
  · -- BGNLIB
    rw [ht]
    unfold secBgnLib at h
    split at h
    · cases h
    · rcases bind_ub h with h | ⟨_, _, h⟩
      · exact .inl (readDates_ub h)
      · cases h
  · unfold secLibName at h; split at h <;> cases h
  · -- UNITS
    unfold secUnits at h
    split at h
    · split at h
      · cases h
      · rename_i i hlib
        obtain ⟨ls', l, rfl, rfl⟩ := hi.lib i hlib
        have hget : p.libs[base.length + ls'.length]? = some (some l) := by
          rw [hi.libs, List.map_append, ← List.append_assoc]
          rw [List.getElem?_append_right (by simp)]
          simp
        dsimp only at h
        rw [hget] at h
        dsimp only at h
        have hlen := rd_length id 16 (env.mem l.units.1 ++ env.mem l.units.2) ⟨rest, false⟩ (by rw [List.length_append, hm, hm])
        rcases bind_ub h with h | ⟨_, _, h⟩
        · exact absurd h (double_ub (by rw [List.length_take]; omega))
        · rcases bind_ub h with h | ⟨_, _, h⟩
          · exact absurd h (double_ub (by rw [List.length_drop]; omega))
          · cases h
    · cases h
  · cases h
  · -- BGNSTR
    rw [ht]
    unfold secBgnStr at h
    split at h
    · rcases bind_ub h with h | ⟨_, _, h⟩
      · exact .inl (readDates_ub h)
      · cases h
    · cases h
  · unfold secStrName at h; split at h <;> cases h
  · -- ENDSTR
    unfold secEndStr at h
    split at h
    · split at h
      · cases h
      · rename_i a ha
        rcases bind_ub h with h | ⟨_, _, h⟩
        · exact absurd h (elemBox_ok (hi.opened a ha))
        · cases h
    · cases h
  · unfold secNewGeom at h; split at h <;> cases h
  · unfold secNewGeom at h; split at h <;> cases h
  · unfold secSref at h; split at h <;> cases h
  · unfold secNewGeom at h; split at h <;> cases h
  · unfold secLayer at h; split at h <;> cases h
  · unfold secDataType at h; split at h <;> cases h
  · -- WIDTH
    rw [ht]
    unfold secWidth at h
    split at h
    · rcases bind_ub h with h | ⟨_, _, h⟩
      · exact readDword_ub h
      · cases h
    · cases h
  · -- XY
    rw [ht]
    have hneed : need 0x10 r.length = max 8 (8 * (r.length / 8)) := rfl
    rw [hneed]
    have points : readCoords (r.length / 8) ⟨0, 0⟩ ⟨rest, false⟩ = .ub → rest.length < max 8 (8 * (r.length / 8)) ∨ leastBytes <:+: rest := by
      intro h
      rcases readCoords_ub _ h with h | h
      · exact .inl (lt_of_lt_of_le h (le_max_right _ _))
      · exact .inr h
    have point : readCoord ⟨0, 0⟩ ⟨rest, false⟩ = .ub → rest.length < max 8 (8 * (r.length / 8)) ∨ leastBytes <:+: rest := by
      intro h
      rcases readCoord_ub h with h | h
      · exact .inl (lt_of_lt_of_le h (le_max_left _ _))
      · exact .inr h
    unfold secXy at h
    split at h
    · split at h
      · rcases bind_ub h with h | ⟨_, _, h⟩
        · exact points h
        · cases h
      · rcases bind_ub h with h | ⟨_, _, h⟩
        · exact points h
        · cases h
      · rcases bind_ub h with h | ⟨_, _, h⟩
        · exact points h
        · cases h
      · rcases bind_ub h with h | ⟨_, _, h⟩
        · exact point h
        · cases h
      · rcases bind_ub h with h | ⟨_, _, h⟩
        · exact point h
        · cases h
      · cases h
    · cases h
  · unfold secEndEl at h; split at h <;> cases h
  · unfold secSname at h; split at h <;> cases h
  · rw [ht]
    unfold secTextType at h
    split at h
    · rcases bind_ub h with h | ⟨_, _, h⟩
      · exact .inl (readWordNew_ub h)
      · cases h
    · cases h
  · rw [ht]
    unfold secPresentation at h
    split at h
    · rcases bind_ub h with h | ⟨_, _, h⟩
      · exact .inl (readWordNew_ub h)
      · cases h
    · cases h
  · unfold secString at h; split at h <;> cases h
  · rw [ht]
    unfold secStrans at h
    split at h
    · rcases bind_ub h with h | ⟨_, _, h⟩
      · exact .inl (readWordNew_ub h)
      · cases h
    · cases h
  · unfold secMag at h
    split at h
    · rcases bind_ub h with h | ⟨_, _, h⟩
      · exact absurd h (double_ub (rd_length _ _ _ _ (by simp)))
      · cases h
    · cases h
  · rw [ht]
    unfold secPathType at h
    split at h
    · rcases bind_ub h with h | ⟨_, _, h⟩
      · exact .inl (readWordNew_ub h)
      · cases h
    · cases h
  · unfold secPropAttr at h
    split at h
    · split at h <;> cases h
    · cases h
  · unfold secNewGeom at h; split at h <;> cases h
  · unfold secBoxType at h; split at h <;> cases h
  · cases h

/-- where the record loop can be undefined -/
theorem readRecords_ub {base : List (Option Library)} {heap0 : Elements} {n0 : Nat} {p : PS} {ls : List Library} (env : Env)
    (hm : ∀ x, (env.mem x).length = 8) (hi : Inv base heap0 n0 p ls) (fuel : Nat) (h : readRecords env fuel p = .ub) :
    CutShort p.file.rest ∨ leastBytes <:+: p.file.rest := by
  induction fuel generalizing p ls with
  | zero => cases h
  | succ fuel ih =>
    rw [readRecords] at h
    split at h
    · cases h
    · split at h
      · rename_i b0 b1 t d rest hr
        have h' : Inv base heap0 n0 { p with file := ⟨rest, false⟩ } ls := ⟨hi.libs, hi.good, hi.next, hi.owned, hi.closed, hi.opened, hi.rest, hi.lib⟩
        have hsuf : rest <:+ p.file.rest := by rw [hr]; exact ⟨[b0, b1, t, d], rfl⟩
        rcases bind_ub h with h | ⟨q, h1, h⟩
        · rcases dispatch_ub env hm hi _ _ h with h | h
          · left
            refine ⟨[], rest, b0, b1, t, d, by rw [hr]; rfl, ?_⟩
            rw [← recLength_eq]
            exact h
          · exact .inr (h.trans hsuf.isInfix)
        · have hc : q.file.rest <:+ rest := dispatch_consumes _ _ _ _ h1
          obtain ⟨ls2, h2⟩ := inv_step h' (dispatch_eff _ _ _ _ h1)
          have hq := hc.trans hsuf
          rcases ih h2 h with ⟨before, rest', x0, x1, x2, x3, he, hlt⟩ | h
          · left
            obtain ⟨pre, hpre⟩ := hq
            exact ⟨pre ++ before, rest', x0, x1, x2, x3, by rw [← hpre, he, List.append_assoc], hlt⟩
          · exact .inr (h.trans hq.isInfix)
      · cases h

end Verif.Gds
