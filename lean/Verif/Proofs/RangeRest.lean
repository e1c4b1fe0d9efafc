import Verif.Proofs.RangeZond
import Verif.Model.BitMatrixRatio
import Verif.Model.GdsiiHelpers
import Verif.Model.Rle
import Verif.Model.GdsiiReader

/-! Proofs for C82: ratios, comparison, compression coefficients and GDSII reals. -/

namespace Verif.Proofs.Range
open Verif Ieee Verif.Spec.Binary64

/-- gradual underflow changes no normal result -/
theorem rneSub_normal : RoundsNormal rneSub := by
  intro q hq
  unfold rneSub rne
  by_cases h0 : q = 0
  · rw [if_pos h0, if_pos h0]
  rw [if_neg h0, if_neg h0]
  have hl : (-1022 : ℤ) ≤ Int.log 2 |q| := by
    have h := (hq.resolve_left h0).1
    refine (Int.zpow_le_iff_le_log (b := 2) (by norm_num) (abs_pos.2 h0)).1 ?_
    exact_mod_cast h
  have : ulpSub q = ulp q := by
    unfold ulpSub
    rw [max_eq_left (by omega)]
    rfl
  rw [this]

theorem loop_eq {σ : Type} {f g : Nat → M σ Unit} (P : σ → Prop)
    (h : ∀ i s, P s → f i s = g i s ∧ ∀ s', f i s = .ok () s' → P s') :
    ∀ (n start : Nat) (s : σ), P s → M.loop start n f s = M.loop start n g s ∧
      ∀ s', M.loop start n f s = .ok () s' → P s' := by
  intro n
  induction n with
  | zero => intro start s hs; exact ⟨rfl, fun s' e => by cases e; exact hs⟩
  | succ n ih =>
    intro start s hs
    obtain ⟨h1, h2⟩ := h start s hs
    unfold M.loop
    cases e : f start s with
    | ub =>
      rw [M.run_bind_ub e, M.run_bind_ub (h1 ▸ e)]
      exact ⟨rfl, fun _ h => by cases h⟩
    | throw x t =>
      rw [M.run_bind_throw e, M.run_bind_throw (h1 ▸ e)]
      exact ⟨rfl, fun _ h => by cases h⟩
    | ok u t =>
      rw [M.run_bind_ok e, M.run_bind_ok (h1 ▸ e)]
      exact ih _ _ (h2 t e)

/-- a count kept in a `double` -/
def Cnt (u : ℚ) : Prop := Tame 0 53 u ∧ 0 ≤ u

theorem cnt_step {rnd : ℚ → ℚ} (hr : RoundsNormal rnd) {u : ℚ} (h : Cnt u) : rnd (u + 1) = rne (u + 1) ∧ Cnt (rne (u + 1)) := by
  obtain ⟨ht, h0⟩ := h
  have h1 : Tame 0 53 1 := by simpa using Tame.int (n := 1) (B := 53) (by norm_num)
  have hs := Tame.add ht h1
  refine ⟨hr _ (hs.normal (by norm_num) (by norm_num)), ⟨hs.rne.1, ?_⟩, ?_⟩
  · have hu : u ≤ 2 ^ 53 := (le_abs_self _).trans ht.2
    have hn : 0 ≤ rne (u + 1) := by
      have := rne_mono 0 (u + 1) (by linarith)
      rwa [rne_zero] at this
    rw [abs_of_nonneg hn]
    refine (rne_mono _ (2 ^ 53 + 1) (by linarith)).trans ?_
    decide +kernel
  · have := rne_mono 0 (u + 1) (by linarith)
    rwa [rne_zero] at this

theorem ratioStep_eq {rnd : ℚ → ℚ} (hr : RoundsNormal rnd) (m : BitMatrix) (v : Bool) (i j : Nat) (u : ℚ) (h : Cnt u) :
    BitMatrix.ratioStep rnd m v i j u = BitMatrix.ratioStep rne m v i j u ∧
      ∀ u', BitMatrix.ratioStep rnd m v i j u = .ok () u' → Cnt u' := by
  obtain ⟨h1, h2⟩ := cnt_step hr h
  unfold BitMatrix.ratioStep
  cases BitMatrix.unsafeGet m i j with
  | ub => exact ⟨rfl, fun _ e => by cases e⟩
  | throw x => exact ⟨rfl, fun _ e => by cases e⟩
  | ok b =>
    dsimp only
    rw [h1]
    refine ⟨rfl, fun u' e => ?_⟩
    by_cases hb : b = v
    · rw [if_pos hb] at e; cases e; exact h2
    · rw [if_neg hb] at e; cases e; exact h

/-- a `size_t` as a `double` -/
theorem nat_tame {n : ℕ} (h : n < 2 ^ 64) : Tame 0 64 (n : ℚ) := by
  have : |((n : ℤ) : ℚ)| ≤ 2 ^ 64 := by
    rw [abs_of_nonneg (by positivity)]
    have : (n : ℚ) ≤ 2 ^ 64 := by exact_mod_cast h.le
    simpa using this
  simpa using Tame.int this

theorem ddiv_eq {rnd : ℚ → ℚ} (hr : RoundsNormal rnd) {a b : ℚ} (ha : Tame 0 64 a) (hb : Tame 0 64 b) :
    Dbl.div rnd a b = Dbl.div rne a b ∧ ∀ q, Dbl.div rne a b = .fin q → Tame 116 64 q := by
  unfold Dbl.div
  by_cases h0 : b = 0
  · rw [if_pos h0, if_pos h0]
    exact ⟨rfl, fun q e => by split_ifs at e⟩
  · rw [if_neg h0, if_neg h0]
    refine ⟨congrArg Dbl.fin (hr _ (Tame.div_normal ha hb h0 (by norm_num) (by norm_num))), fun q e => ?_⟩
    have e := Dbl.fin.inj e
    have t := Tame.div_rne ha hb h0
    rw [e] at t
    exact t.mono (by norm_num) (by norm_num)

theorem mulSz_lt (a b : Nat) : mulSz a b < 2 ^ 64 := by
  unfold mulSz
  have h : 0 < sz64 := by unfold sz64; norm_num
  have := Nat.mod_lt (a * b) h
  unfold sz64 at this ⊢
  exact this

theorem calcRatio_eq {rnd : ℚ → ℚ} (hr : RoundsNormal rnd) (m : BitMatrix) (v : Bool) :
    BitMatrix.calcRatio rnd m v = BitMatrix.calcRatio rne m v ∧
      ∀ q, BitMatrix.calcRatio rne m v = .ok (.fin q) → q = -1 ∨ Tame 116 64 q := by
  have hl := loop_eq (f := fun i => M.loop 0 m.jsize fun j => BitMatrix.ratioStep rnd m v i j)
    (g := fun i => M.loop 0 m.jsize fun j => BitMatrix.ratioStep rne m v i j) Cnt
    (fun i s hs => loop_eq Cnt (fun j t ht => ratioStep_eq hr m v i j t ht) m.jsize 0 s hs) m.isize 0 0
    ⟨⟨⟨0, by simp⟩, by norm_num⟩, le_rfl⟩
  unfold BitMatrix.calcRatio
  cases e : (M.loop 0 m.isize fun i => M.loop 0 m.jsize fun j => BitMatrix.ratioStep rnd m v i j) 0 with
  | ub =>
    rw [← hl.1, e]
    exact ⟨rfl, fun q h => by cases h⟩
  | throw x u =>
    rw [← hl.1, e]
    exact ⟨rfl, fun q h => by cases h; exact .inl rfl⟩
  | ok x u =>
    rw [← hl.1, e]
    dsimp only
    have hu := hl.2 u e
    have hn := nat_tame (mulSz_lt m.isize m.jsize)
    have e1 : rnd (mulSz m.isize m.jsize : ℕ) = rne (mulSz m.isize m.jsize : ℕ) := hr _ (hn.normal (by norm_num) (by norm_num))
    have := ddiv_eq hr (hu.1.mono le_rfl (by norm_num)) hn.rne
    rw [e1, this.1]
    exact ⟨rfl, fun q h => .inr (this.2 q (Res.ok.inj h))⟩

theorem compare_eq {rnd : ℚ → ℚ} (hr : RoundsNormal rnd) (al : Alloc) (a b : BitMatrix) :
    BitMatrix.compare rnd al a b = BitMatrix.compare rne al a b := by
  unfold BitMatrix.compare
  cases BitMatrix.xor al a b with
  | ub => rfl
  | throw e => rfl
  | ok x =>
    dsimp only
    unfold BitMatrix.oneRatio
    obtain ⟨h1, h2⟩ := calcRatio_eq hr x true
    rw [h1]
    cases h : BitMatrix.calcRatio rne x true with
    | ub => rfl
    | throw e => rfl
    | ok r =>
      dsimp only
      by_cases hr1 : r = .fin (-1)
      · rw [if_pos hr1, if_pos hr1]
      · rw [if_neg hr1, if_neg hr1]
        cases r with
        | nan => rfl
        | inf => rfl
        | fin q =>
          have hq := (h2 q h).resolve_left fun e => hr1 (by rw [e])
          have h1 : Tame 116 64 1 := by simpa using (Tame.int (n := 1) (B := 64) (by norm_num)).mono (Nat.zero_le 116) le_rfl
          show Res.ok (Dbl.fin (rnd (1 - q))) = Res.ok (Dbl.fin (rne (1 - q)))
          rw [hr _ ((Tame.sub h1 hq).normal (by norm_num) (by norm_num))]

theorem lit_eq {rnd : ℚ → ℚ} (hr : RoundsNormal rnd) : rnd (9999 / 10000) = rne (9999 / 10000) := by
  refine hr _ (.inr ?_)
  rw [abs_of_nonneg (by norm_num)]
  constructor
  · refine le_trans (zpow_le_zpow_right₀ (by norm_num) (show (-1022 : ℤ) ≤ -1 by norm_num)) (by norm_num)
  · refine le_trans (by norm_num : (9999 / 10000 : ℚ) ≤ 2 ^ 0) (pow_le_pow_right₀ (by norm_num) (by norm_num))

theorem opEq_eq {rnd : ℚ → ℚ} (hr : RoundsNormal rnd) (al : Alloc) (a b : BitMatrix) :
    BitMatrix.opEq rnd al a b = BitMatrix.opEq rne al a b := by
  unfold BitMatrix.opEq
  rw [compare_eq hr, lit_eq hr]

theorem opNe_eq {rnd : ℚ → ℚ} (hr : RoundsNormal rnd) (al : Alloc) (a b : BitMatrix) :
    BitMatrix.opNe rnd al a b = BitMatrix.opNe rne al a b := by
  unfold BitMatrix.opNe
  rw [compare_eq hr, lit_eq hr]

/-! GDSII reals -/

theorem pow16_tame {e : ℤ} (h1 : -64 ≤ e) (h2 : e ≤ 63) : TameF 256 252 (Gds.powFl 16 e) := by
  have e16 : (16 : ℚ) ^ e = 2 ^ (4 * e) := by
    rw [zpow_mul]; norm_num
  unfold Gds.powFl
  rw [e16]
  refine ⟨⟨2 ^ (4 * e + 256).toNat, ?_⟩, ?_⟩
  · push_cast
    rw [← zpow_natCast, ← zpow_natCast, Int.toNat_of_nonneg (by omega), ← zpow_add₀ (by norm_num)]
    norm_num
  · rw [abs_of_nonneg (zpow_nonneg (by norm_num) _), ← zpow_natCast]
    exact zpow_le_zpow_right₀ (by norm_num) (by norm_num; omega)

theorem pow2_tame (n : ℕ) : TameF 0 n (Gds.powFl 2 n) := by
  unfold Gds.powFl
  rw [zpow_natCast]
  have := Tame.int (n := 2 ^ n) (B := n) (by push_cast; rw [abs_of_nonneg (by positivity)])
  push_cast at this
  exact this

theorem mantissa_eq {rnd : ℚ → ℚ} (hr : RoundsNormal rnd) : ∀ (bs : List UInt8) (B : ℕ) (m : Fl), TameF 0 B m →
    B + 9 * bs.length ≤ 1023 →
    bs.foldl (fun m b => Fl.add rnd (Fl.mul rnd m (.fin 0x100)) (.fin b.toNat)) m =
      bs.foldl (fun m b => Fl.add rne (Fl.mul rne m (.fin 0x100)) (.fin b.toNat)) m ∧
    TameF 0 (B + 9 * bs.length) (bs.foldl (fun m b => Fl.add rne (Fl.mul rne m (.fin 0x100)) (.fin b.toNat)) m) := by
  intro bs
  induction bs with
  | nil => intro B m hm _; exact ⟨rfl, hm⟩
  | cons b bs ih =>
    intro B m hm hB
    rw [List.length_cons] at hB
    have h256 : TameF 0 8 (.fin 0x100) := by
      have := Tame.int (n := 256) (B := 8) (by norm_num)
      exact_mod_cast this
    have hb : TameF 0 (B + 8) (.fin (b.toNat : ℚ)) := by
      have h1 : b.toNat < 256 := b.toNat_lt
      have : |((b.toNat : ℤ) : ℚ)| ≤ 2 ^ 8 := by
        rw [abs_of_nonneg (by positivity)]
        have : (b.toNat : ℚ) ≤ 2 ^ 8 := by exact_mod_cast h1.le
        simpa using this
      have h2 := Tame.int this
      exact (by simpa using h2 : Tame 0 8 (b.toNat : ℚ)).mono le_rfl (by omega)
    obtain ⟨e1, t1⟩ := mul_eq hr hm h256 (by norm_num) (by omega)
    obtain ⟨e2, t2⟩ := add_eq hr t1 hb (by norm_num) (by omega)
    have := ih (B + 9) _ t2 (by omega)
    simp only [List.foldl_cons]
    rw [e1, e2]
    refine ⟨this.1, this.2.mono le_rfl ?_⟩
    rw [List.length_cons]
    omega

theorem normalizeDouble_eq {rnd : ℚ → ℚ} (hr : RoundsNormal rnd) (bytes : List UInt8) :
    Gds.normalizeDouble rnd bytes = Gds.normalizeDouble rne bytes := by
  unfold Gds.normalizeDouble
  split
  · rename_i b0 b1 b2 b3 b4 b5 b6 b7
    have hm := mantissa_eq hr [b1, b2, b3, b4, b5, b6, b7] 0 (.fin 0) ⟨⟨0, by simp⟩, by norm_num⟩ (by simp)
    have e0 : Gds.mantissaLoop rnd [b1, b2, b3, b4, b5, b6, b7] = Gds.mantissaLoop rne [b1, b2, b3, b4, b5, b6, b7] := hm.1
    have t0 : TameF 0 63 (Gds.mantissaLoop rne [b1, b2, b3, b4, b5, b6, b7]) := hm.2
    obtain ⟨e1, t1⟩ := div_eq hr t0 (pow2_tame 56) (by norm_num) (by norm_num)
    have hlt : b0.toNat &&& 0x7f < 128 := by
      have := Nat.and_le_right (n := b0.toNat) (m := 0x7f)
      omega
    have hp := pow16_tame (e := ((b0.toNat &&& 0x7f : Nat) : Int) - 64) (by omega) (by omega)
    obtain ⟨e2, t2⟩ := mul_eq hr t1 hp (by norm_num) (by norm_num)
    have h1 : TameF 0 1 (.fin (-1)) := by
      have := Tame.int (n := -1) (B := 1) (by norm_num)
      exact_mod_cast this
    obtain ⟨e3, _⟩ := mul_eq hr t2 h1 (by norm_num) (by norm_num)
    have e56 : Gds.powFl 2 (7 * 8) = Gds.powFl 2 ((56 : ℕ) : ℤ) := rfl
    dsimp only
    rw [e0, e56, e1, e2, e3]
  · rfl

theorem findExponent_eq {rnd : ℚ → ℚ} (hr : RoundsNormal rnd) {x : Fl} (hx : TameF 104 700 x) : ∀ (fuel : Nat) (e : Int) (m : Fl),
    -64 ≤ e → e + fuel ≤ 64 → TameF 408 956 m → Gds.findExponent rnd x fuel e m = Gds.findExponent rne x fuel e m ∧
      TameF 408 956 (Gds.findExponent rne x fuel e m).2 := by
  intro fuel
  induction fuel with
  | zero => intro e m _ _ hm; exact ⟨rfl, hm⟩
  | succ n ih =>
    intro e m h1 h2 hm
    push_cast at h2
    obtain ⟨e1, t1⟩ := div_eq hr hx (pow16_tame h1 (by omega)) (by norm_num) (by norm_num)
    have hi := ih (e + 1) _ (by omega) (by omega) t1
    unfold Gds.findExponent
    dsimp only
    rw [e1]
    by_cases hc : Fl.le (Fl.div rne x (Gds.powFl 16 e)) (.fin 1) = true
    · rw [if_pos hc, if_pos hc]; exact ⟨rfl, t1⟩
    · rw [if_neg hc, if_neg hc]; exact hi

theorem shiftDown_eq {rnd : ℚ → ℚ} (hr : RoundsNormal rnd) : ∀ (n N : ℕ) (x : Fl), TameF N 1012 x → N + 60 * n ≤ 1000 →
    Gds.shiftDown rnd n x = Gds.shiftDown rne n x := by
  intro n
  induction n with
  | zero => intro N x _ _; rfl
  | succ n ih =>
    intro N x hx hN
    obtain ⟨e1, t1⟩ := div_eq hr hx (pow2_tame 8) (by omega) (by norm_num)
    unfold Gds.shiftDown
    have e8 : Gds.powFl 2 8 = Gds.powFl 2 ((8 : ℕ) : ℤ) := rfl
    rw [e8, e1]
    exact ih (N + 60) _ (t1.mono (by omega) (by norm_num)) (by omega)

theorem deNormalizeDouble_eq {rnd : ℚ → ℚ} (hr : RoundsNormal rnd) (value : Fl)
    (hv : ∀ q, value = .fin q → rne q = q ∧ |q| ≤ 2 ^ 700) :
    Gds.deNormalizeDouble rnd value = Gds.deNormalizeDouble rne value := by
  have hz : TameF 408 956 (.fin 0) := ⟨⟨0, by simp⟩, by norm_num⟩
  have hem : ∃ em : Int × Fl, TameF 408 956 em.2 ∧ (if Fl.le (.fin (2 ^ (-52 : Int))) (Gds.fabs (Gds.fabs value)) then
        Gds.findExponent rnd (Gds.fabs value) 128 (-64) (.fin 0) else (0, .fin 0)) = em ∧
      (if Fl.le (.fin (2 ^ (-52 : Int))) (Gds.fabs (Gds.fabs value)) then
        Gds.findExponent rne (Gds.fabs value) 128 (-64) (.fin 0) else (0, .fin 0)) = em := by
    by_cases hc : Fl.le (.fin (2 ^ (-52 : Int))) (Gds.fabs (Gds.fabs value)) = true
    · rw [if_pos hc, if_pos hc]
      have hx : TameF 104 700 (Gds.fabs value) := by
        cases value with
        | fin q =>
          have h1 := (hv q rfl).1
          have h2 : |(|q|)| ≤ 2 ^ 700 := by rw [abs_abs]; exact (hv q rfl).2
          have hq : (2 : ℚ) ^ (-52 : ℤ) ≤ |q| := by
            have := hc
            simp only [Gds.fabs, Fl.le, abs_abs, decide_eq_true_eq] at this
            exact this
          have h3 := rne_tame (q := |q|) (L := 52) (B := 700) (fun _ => by
            rw [abs_abs]
            rw [zpow_neg, inv_le_iff_one_le_mul₀ (by positivity)] at hq
            exact_mod_cast hq) h2
          have h4 : rne |q| = |q| := by
            rcases abs_cases q with ⟨h, _⟩ | ⟨h, _⟩ <;> rw [h]
            · exact h1
            · rw [rne_neg, h1]
          rw [h4] at h3
          exact h3
        | _ => trivial
      have := findExponent_eq hr hx 128 (-64) (.fin 0) (by norm_num) (by norm_num) hz
      exact ⟨_, this.2, this.1, rfl⟩
    · rw [if_neg hc, if_neg hc]
      exact ⟨_, hz, rfl, rfl⟩
  obtain ⟨em, ht, h1, h2⟩ := hem
  unfold Gds.deNormalizeDouble
  dsimp only
  rw [h1, h2]
  obtain ⟨e1, t1⟩ := mul_eq hr ht (pow2_tame 56) (by norm_num) (by norm_num)
  have e56 : Gds.powFl 2 56 = Gds.powFl 2 ((56 : ℕ) : ℤ) := rfl
  rw [e56, e1]
  have hs : ∀ k, k ≤ 6 → Gds.shiftDown rnd k (Fl.mul rne em.2 (Gds.powFl 2 ((56 : ℕ) : ℤ))) =
      Gds.shiftDown rne k (Fl.mul rne em.2 (Gds.powFl 2 ((56 : ℕ) : ℤ))) :=
    fun k hk => shiftDown_eq hr k 408 _ t1 (by omega)
  simp only [List.foldl_cons, List.foldl_nil]
  rw [hs 6 (by omega), hs 5 (by omega), hs 4 (by omega), hs 3 (by omega), hs 2 (by omega), hs 1 (by omega), hs 0 (by omega)]

/-! the GDSII reader -/

theorem dispatch_eq {rnd : ℚ → ℚ} (hr : RoundsNormal rnd) (env : Gds.Env) (r : Gds.Rec) (p : Gds.PS) :
    Gds.dispatch { env with rnd := rnd } r p = Gds.dispatch { env with rnd := rne } r p := by
  have h1 : Gds.secUnits { env with rnd := rnd } p = Gds.secUnits { env with rnd := rne } p := by
    unfold Gds.secUnits
    simp only [normalizeDouble_eq hr]
  have h2 : Gds.secMag { env with rnd := rnd } p = Gds.secMag { env with rnd := rne } p := by
    unfold Gds.secMag
    simp only [normalizeDouble_eq hr]
  unfold Gds.dispatch
  rw [h1, h2]

theorem readRecords_eq {rnd : ℚ → ℚ} (hr : RoundsNormal rnd) (env : Gds.Env) : ∀ (fuel : Nat) (p : Gds.PS),
    Gds.readRecords { env with rnd := rnd } fuel p = Gds.readRecords { env with rnd := rne } fuel p := by
  intro fuel
  induction fuel with
  | zero => intro p; rfl
  | succ n ih =>
    intro p
    unfold Gds.readRecords
    simp only [dispatch_eq hr, ih]

theorem read_eq {rnd : ℚ → ℚ} (hr : RoundsNormal rnd) (env : Gds.Env) (next : Nat) (null : Bool) :
    Gds.read { env with rnd := rnd } next null = Gds.read { env with rnd := rne } next null := by
  funext w
  unfold Gds.read
  simp only [readRecords_eq hr]

/-! compression coefficients -/

theorem coeffStr_eq {rnd : ℚ → ℚ} (hr : RoundsNormal rnd) (str : List UInt8) (b : Bool) (h1 : str.length < 2 ^ 64)
    (h2 : ∀ e, (if b then Rle.byteEncode str else Rle.encodeStr str) = .ok e → e.length < 2 ^ 64) :
    Rle.coeffStr rnd str b = Rle.coeffStr rne str b := by
  unfold Rle.coeffStr
  by_cases h0 : str = []
  · rw [if_pos h0, if_pos h0]
  rw [if_neg h0, if_neg h0]
  have key : ∀ (x : Res (List UInt8)), (∀ e, x = .ok e → e.length < 2 ^ 64) →
      (x >>= fun e => pure (Dbl.div rnd (rnd (str.length : ℕ)) (rnd (e.length : ℕ)))) =
        (x >>= fun e => (pure (Dbl.div rne (rne (str.length : ℕ)) (rne (e.length : ℕ))) : Res Dbl)) := by
    intro x hx
    cases x with
    | ub => rfl
    | throw x => rfl
    | ok e =>
      have t1 := nat_tame h1
      have t2 := nat_tame (hx e rfl)
      rw [Res.ok_bind, Res.ok_bind, hr _ (t1.normal (by norm_num) (by norm_num)), hr _ (t2.normal (by norm_num) (by norm_num)),
        (ddiv_eq hr t1.rne t2.rne).1]
  cases b with
  | true => exact key (Rle.byteEncode str) (fun e he => h2 e (by simpa using he))
  | false => exact key (Rle.encodeStr str) (fun e he => h2 e (by simpa using he))

theorem coeffMatrix_eq {rnd : ℚ → ℚ} (hr : RoundsNormal rnd) (m : BitMatrix)
    (h1 : ∀ s, BitMatrix.serialize m = .ok s → s.length < 2 ^ 64) (h2 : ∀ s, Rle.encode m = .ok s → s.length < 2 ^ 64) :
    Rle.coeffMatrix rnd m = Rle.coeffMatrix rne m := by
  unfold Rle.coeffMatrix
  by_cases h0 : m.opNot = true
  · rw [if_pos h0, if_pos h0]
  rw [if_neg h0, if_neg h0]
  cases hs : BitMatrix.serialize m with
  | ub => rfl
  | throw x => rfl
  | ok s =>
    cases he : Rle.encode m with
    | ub => rfl
    | throw x => rfl
    | ok e =>
      have t1 := nat_tame (h1 s hs)
      have t2 := nat_tame (h2 e he)
      simp only [Res.ok_bind]
      rw [hr _ (t1.normal (by norm_num) (by norm_num)), hr _ (t2.normal (by norm_num) (by norm_num)), (ddiv_eq hr t1.rne t2.rne).1]

end Verif.Proofs.Range
