import Verif.Proofs.GdsiiPost
import Verif.Proofs.GdsiiReal
import Verif.Proofs.Msk2
import Verif.Spec.GdsiiFile

/-! Lemmas about the record parser of the GDSII reader. -/

namespace Verif.Gds
open Verif Spec.Gdsii Ieee

/-! ### numbers -/

theorem ofNat_toNat {n : Nat} (h : n < 256) : (UInt8.ofNat n).toNat = n := by
  rw [UInt8.toNat_ofNat']; omega

theorem wordOf_toNat (b0 b1 : UInt8) : (wordOf [b0, b1]).toNat = b0.toNat + 256 * b1.toNat := by
  unfold wordOf
  rw [word_toNat]
  simp

theorem dwordOf_toNat (b0 b1 b2 b3 : UInt8) :
    (dwordOf [b0, b1, b2, b3]).toNat = b0.toNat + 256 * b1.toNat + 65536 * b2.toNat + 16777216 * b3.toNat := by
  unfold dwordOf
  rw [dword_toNat]
  simp

theorem dig4 (a b c d : Nat) (ha : a < 256) (hb : b < 256) (hc : c < 256) (hd : d < 256) :
    (a + 256 * b + 65536 * c + 16777216 * d) / 16777216 % 256 = d ∧
    (a + 256 * b + 65536 * c + 16777216 * d) / 65536 % 256 = c ∧
    (a + 256 * b + 65536 * c + 16777216 * d) / 256 % 256 = b ∧
    (a + 256 * b + 65536 * c + 16777216 * d) % 256 = a := by
  have h1 : (a + 256 * b + 65536 * c + 16777216 * d) / 256 = b + 256 * c + 65536 * d := by omega
  have h2 : (a + 256 * b + 65536 * c + 16777216 * d) / 65536 = c + 256 * d := by omega
  have h3 : (a + 256 * b + 65536 * c + 16777216 * d) / 16777216 = d := by omega
  refine ⟨by rw [h3]; omega, by rw [h2]; omega, by rw [h1]; omega, by omega⟩

theorem dig4' (m : Nat) :
    m % 256 + 256 * (m / 256 % 256) + 65536 * (m / 65536 % 256) + 16777216 * (m / 16777216) = m := by
  have h2 : m / 65536 = m / 256 / 256 := by rw [Nat.div_div_eq_div_mul]
  have h3 : m / 16777216 = m / 256 / 256 / 256 := by rw [Nat.div_div_eq_div_mul, Nat.div_div_eq_div_mul]
  rw [h2, h3]
  generalize ha : m / 256 = a
  generalize hb : a / 256 = b
  omega

theorem dig2 (a b : Nat) (ha : a < 256) (hb : b < 256) : (a + 256 * b) / 256 % 256 + 256 * ((a + 256 * b) % 256) = b + 256 * a := by
  have h1 : (a + 256 * b) / 256 = b := by omega
  have h2 : (a + 256 * b) % 256 = a := by omega
  rw [h1, h2]
  omega

theorem normalizeWord_be16 (v : Int) (h : Fits16 v) : (normalizeWord (wordOf (be16 v))).toInt = v := by
  unfold Fits16 at h
  unfold be16
  rw [normalizeWord_eq, toInt_signed _ (by omega), word_toNat, byte_toNat, byte_toNat, wordOf_toNat, ofNat_toNat (by omega),
    ofNat_toNat (by omega)]
  simp only [Nat.reducePow, Nat.pow_zero, Nat.div_one]
  rw [dig2 _ _ (by omega) (by omega)]
  have e : (v % 65536).toNat % 256 + 256 * ((v % 65536).toNat / 256) = (v % 65536).toNat := by omega
  rw [e]
  unfold signed
  simp only [Nat.reducePow, Nat.reduceSub]
  split <;> omega

theorem normalizeDword_be32 (v : Int) (h : Fits32 v) : ∃ w, normalizeDword (dwordOf (be32 v)) = .ok w ∧ w.toInt = v := by
  unfold Fits32 at h
  have e : ∀ u : BitVec 32, (dword (byte u 3) (byte u 2) (byte u 1) (byte u 0)).toNat =
      u.toNat / 16777216 % 256 + 256 * (u.toNat / 65536 % 256) + 65536 * (u.toNat / 256 % 256) + 16777216 * (u.toNat % 256) := by
    intro u
    rw [dword_toNat, byte_toNat, byte_toNat, byte_toNat, byte_toNat]
    simp only [Nat.reducePow, Nat.pow_zero, Nat.div_one]
  have hu : (dwordOf (be32 v)).toNat = (v % 4294967296).toNat / 16777216 + 256 * ((v % 4294967296).toNat / 65536 % 256) +
      65536 * ((v % 4294967296).toNat / 256 % 256) + 16777216 * ((v % 4294967296).toNat % 256) := by
    unfold be32
    rw [dwordOf_toNat, ofNat_toNat (by omega), ofNat_toNat (by omega), ofNat_toNat (by omega), ofNat_toNat (by omega)]
  rw [normalizeDword_eq]
  dsimp only
  generalize dwordOf (be32 v) = u at hu
  generalize hm : (v % 4294967296).toNat = m at hu
  have hmb : m < 4294967296 := by omega
  have hw : (dword (byte u 3) (byte u 2) (byte u 1) (byte u 0)).toNat = m := by
    rw [e, hu]
    obtain ⟨e1, e2, e3, e4⟩ := dig4 (m / 16777216) (m / 65536 % 256) (m / 256 % 256) (m % 256) (by omega)
      (Nat.mod_lt _ (by decide)) (Nat.mod_lt _ (by decide)) (Nat.mod_lt _ (by decide))
    rw [e1, e2, e3, e4, dig4' m]
  generalize dword (byte u 3) (byte u 2) (byte u 1) (byte u 0) = w at hw
  have hi : w.toInt = v := by
    rw [toInt_signed _ (by omega), hw]
    unfold signed
    simp only [Nat.reduceSub, Nat.reducePow]
    split <;> omega
  refine ⟨w, ?_, hi⟩
  rw [if_neg]
  intro hc
  rw [hc] at hi
  have : (0x80000000#32).toInt = -2147483648 := by decide
  rw [this] at hi
  omega

theorem be16_length (v : Int) : (be16 v).length = 2 := rfl
theorem be32_length (v : Int) : (be32 v).length = 4 := rfl

/-! ### reading -/

theorem rd_exact {α : Type} (f : UInt8 → α) (old : List α) (bs rest : List UInt8) :
    rd f bs.length old ⟨bs ++ rest, false⟩ = (bs.map f, ⟨rest, false⟩) := by
  unfold rd
  rw [if_neg (by simp), if_neg (by simp)]
  simp

theorem readWord_be16 (old v : Int) (h : Fits16 v) (rest : List UInt8) : readWord old ⟨be16 v ++ rest, false⟩ = (v, ⟨rest, false⟩) := by
  unfold readWord
  have := rd_exact id (wordBytes (BitVec.ofInt 16 old)) (be16 v) rest
  rw [be16_length] at this
  rw [this]
  dsimp only
  rw [List.map_id, normalizeWord_be16 v h]

theorem readWordNew_be16 (v : Int) (h : Fits16 v) (rest : List UInt8) : readWordNew ⟨be16 v ++ rest, false⟩ = .ok (v, ⟨rest, false⟩) := by
  unfold readWordNew
  rw [if_neg (by simp [be16]), readWord_be16 0 v h]

theorem readDword_be32 (old v : Int) (h : Fits32 v) (rest : List UInt8) : readDword old ⟨be32 v ++ rest, false⟩ = .ok (v, ⟨rest, false⟩) := by
  unfold readDword
  have := rd_exact id (dwordBytes (BitVec.ofInt 32 old)) (be32 v) rest
  rw [be32_length] at this
  rw [this]
  dsimp only
  obtain ⟨w, h1, h2⟩ := normalizeDword_be32 v h
  rw [List.map_id, h1, Res.ok_bind, h2]
  rfl

theorem readCoord_bytes (old c : Coord) (h : FitsC c) (rest : List UInt8) :
    readCoord old ⟨coordBytes c ++ rest, false⟩ = .ok (c, ⟨rest, false⟩) := by
  unfold readCoord
  have := rd_exact id (dwordBytes (BitVec.ofInt 32 old.x) ++ dwordBytes (BitVec.ofInt 32 old.y)) (coordBytes c) rest
  have hl : (coordBytes c).length = 8 := rfl
  rw [hl] at this
  rw [this]
  dsimp only
  obtain ⟨w, h1, h2⟩ := normalizeDword_be32 c.x h.1
  obtain ⟨u, h3, h4⟩ := normalizeDword_be32 c.y h.2
  have e1 : (coordBytes c).take 4 = be32 c.x := rfl
  have e2 : (coordBytes c).drop 4 = be32 c.y := rfl
  rw [List.map_id, e1, e2, h1, Res.ok_bind, h3, Res.ok_bind, h2, h4]
  rfl

theorem readCoords_bytes (cs : List Coord) (hc : ∀ c ∈ cs, FitsC c) (old : Coord) (rest : List UInt8) :
    readCoords cs.length old ⟨cs.flatMap coordBytes ++ rest, false⟩ = .ok (cs, ⟨rest, false⟩) := by
  induction cs generalizing old with
  | nil => rfl
  | cons c cs ih =>
    rw [List.length_cons, readCoords, List.flatMap_cons, List.append_assoc, readCoord_bytes old c (hc c (by simp)), Res.ok_bind]
    dsimp only
    rw [ih (fun x hx => hc x (List.mem_cons_of_mem _ hx)), Res.ok_bind]
    rfl

theorem takeWhile_padded (s : List UInt8) (h : 0 ∉ s) : (padded s).takeWhile (fun c => decide (c ≠ 0)) = s := by
  have hall : ∀ c ∈ s, decide (c ≠ 0) = true := by
    intro c hc
    rw [decide_eq_true_iff]
    rintro rfl
    exact h hc
  unfold padded
  split
  · exact List.takeWhile_eq_self_iff.2 hall
  · rw [List.takeWhile_append_of_pos hall]
    simp

theorem readString_padded (s : List UInt8) (h : FitsS s) (rest : List UInt8) :
    readString (padded s).length ⟨padded s ++ rest, false⟩ = (s, ⟨rest, false⟩) := by
  unfold readString
  rw [rd_exact]
  dsimp only
  rw [List.map_id, takeWhile_padded s h.1]

theorem padded_length (s : List UInt8) (h : FitsS s) : (padded s).length ≤ 65531 := by
  have := h.2
  unfold padded
  split
  · omega
  · rw [List.length_append]; simp only [List.length_cons, List.length_nil]; omega

/-! ### records -/

theorem recLength_record (n : Nat) (h : n ≤ 65531) :
    recLength (UInt8.ofNat (((n + 4 : Int) % 65536).toNat / 256)) (UInt8.ofNat (((n + 4 : Int) % 65536).toNat % 256)) = n := by
  have e : ((n + 4 : Int) % 65536).toNat = n + 4 := by omega
  unfold recLength
  by_cases hn : n + 4 < 65536
  · rw [len_iff _ _ n hn, e, ofNat_toNat (by omega), ofNat_toNat (by omega)]
    omega
  · omega

theorem record_step (env : Env) (t d : UInt8) (payload : List UInt8) (hl : payload.length ≤ 65531) (fuel : Nat) (p : PS)
    (rest : List UInt8) :
    readRecords env (fuel + 1) { p with file := ⟨record t d payload ++ rest, false⟩ } =
      (dispatch env ⟨payload.length, t⟩ { p with file := ⟨payload ++ rest, false⟩ } >>= readRecords env fuel) := by
  rw [readRecords]
  have e : record t d payload ++ rest = UInt8.ofNat (((payload.length + 4 : Int) % 65536).toNat / 256) ::
      UInt8.ofNat (((payload.length + 4 : Int) % 65536).toNat % 256) :: t :: d :: (payload ++ rest) := rfl
  rw [e]
  dsimp only
  rw [if_neg (by simp), recLength_record _ hl]

/-- the records `bs` take the parser from `p` to `p'` -/
def Parses (env : Env) (bs : List UInt8) (p p' : PS) : Prop :=
  ∀ rest, ∃ n ≤ bs.length, ∀ fuel, readRecords env (n + fuel) { p with file := ⟨bs ++ rest, false⟩ } =
    readRecords env fuel { p' with file := ⟨rest, false⟩ }

theorem Parses.nil (env : Env) (p : PS) : Parses env [] p p := fun rest => ⟨0, by simp, fun fuel => by rw [Nat.zero_add]; rfl⟩

theorem Parses.append {env : Env} {b1 b2 : List UInt8} {p p' p'' : PS} (h1 : Parses env b1 p p') (h2 : Parses env b2 p' p'') :
    Parses env (b1 ++ b2) p p'' := by
  intro rest
  obtain ⟨n, hn, h1⟩ := h1 (b2 ++ rest)
  obtain ⟨m, hm, h2⟩ := h2 rest
  refine ⟨n + m, by rw [List.length_append]; omega, fun fuel => ?_⟩
  rw [Nat.add_assoc, List.append_assoc, h1, h2]

theorem Parses.record {env : Env} {t d : UInt8} {payload : List UInt8} {p p' : PS} (hl : payload.length ≤ 65531)
    (h : ∀ rest, dispatch env ⟨payload.length, t⟩ { p with file := ⟨payload ++ rest, false⟩ } = .ok { p' with file := ⟨rest, false⟩ }) :
    Parses env (Spec.Gdsii.record t d payload) p p' := by
  intro rest
  refine ⟨1, ?_, fun fuel => ?_⟩
  · unfold Spec.Gdsii.record
    simp only [List.length_append, List.length_cons, List.length_nil]
    omega
  · rw [Nat.add_comm, record_step env t d payload hl, h, Res.ok_bind]

theorem Parses.opt {env : Env} {α : Type} {t d : UInt8} {f : α → List UInt8} {o : Option α} {p : PS} {q : Option α → PS} (hp : q none = p)
    (h : ∀ v ∈ o, Parses env (Spec.Gdsii.record t d (f v)) p (q (some v))) : Parses env (optRecord t d (o.map f)) p (q o) := by
  cases o with
  | none => rw [hp]; exact Parses.nil env p
  | some v => exact h v rfl

/-- unused records -/
theorem dispatch_other (env : Env) (t : UInt8) (n : Nat) (p : PS) (h : t ∉ used) :
    dispatch env ⟨n, t⟩ p = .ok { p with file := seek n p.file } := by
  have hx : ∀ c ∈ used, t ≠ c := fun c hc e => h (e ▸ hc)
  have h' := hx
  simp only [used, List.mem_cons, List.not_mem_nil, or_false, forall_eq_or_imp, forall_eq] at h'
  unfold dispatch
  dsimp only
  split <;> first
    | rfl
    | (exfalso; simp_all)

theorem Parses.others (env : Env) (os : List Other) (h : ∀ o ∈ os, o.Fits) (p : PS) : Parses env (othersBytes os) p p := by
  induction os with
  | nil => exact Parses.nil env p
  | cons o os ih =>
    unfold othersBytes
    rw [List.flatMap_cons]
    refine Parses.append ?_ (ih fun x hx => h x (List.mem_cons_of_mem _ hx))
    obtain ⟨h1, h2⟩ := h o (by simp)
    refine Parses.record h2 fun rest => ?_
    rw [dispatch_other env _ _ _ h1]
    unfold seek
    simp

end Verif.Gds
