import Verif.Spec.FragmentPlan
import Verif.Proofs.Ieee
import Mathlib.Tactic.Linarith
import Mathlib.Tactic.FieldSimp
import Mathlib.Tactic.Ring
import Mathlib.Tactic.Positivity

/-!
C66-C68: the division of the work among fragments (private functions; `Process` does not call them).
-/

namespace Verif.Props
open Verif Spec Generator Ieee

/-! ### The loop over the fragments -/

theorem mapM_zipIdx_ok {α β : Type} (f : Nat → α → Res β) (l : List α) (n : Nat) (r : List β)
    (h : (l.zipIdx n).mapM (fun x => f x.2 x.1) = .ok r) :
    r.length = l.length ∧ ∀ k, ∀ x, l[k]? = some x → ∃ y, r[k]? = some y ∧ f (n + k) x = .ok y := by
  induction l generalizing n r with
  | nil => cases h; exact ⟨rfl, fun k x hx => by simp at hx⟩
  | cons a l ih =>
    rw [List.zipIdx_cons, List.mapM_cons] at h
    cases hb : f n a with
    | ub => simp [hb] at h
    | throw e => simp [hb] at h
    | ok b =>
      simp only [hb, Res.ok_bind] at h
      cases hr : (l.zipIdx (n + 1)).mapM (fun x => f x.2 x.1) with
      | ub => simp [hr] at h
      | throw e => simp [hr] at h
      | ok r' =>
        simp only [hr, Res.ok_bind, Res.pure_eq] at h
        have h := Res.ok.inj h
        subst h
        obtain ⟨hl, hk⟩ := ih _ _ hr
        refine ⟨by simp [hl], ?_⟩
        intro k x hx
        cases k with
        | zero => simp at hx; subst hx; exact ⟨b, by simp, hb⟩
        | succ k =>
          obtain ⟨y, hy, hf⟩ := hk k x (by simpa using hx)
          exact ⟨y, by simpa using hy, by rw [← hf]; congr 1; omega⟩

theorem mapM_zipIdx_total {α β : Type} (f : Nat → α → Res β) (l : List α) (n : Nat)
    (h : ∀ k x, l[k]? = some x → ∃ y, f (n + k) x = .ok y) :
    ∃ r, (l.zipIdx n).mapM (fun x => f x.2 x.1) = .ok r := by
  induction l generalizing n with
  | nil => exact ⟨[], rfl⟩
  | cons a l ih =>
    obtain ⟨b, hb⟩ := h 0 a rfl
    obtain ⟨r, hr⟩ := ih (n + 1) fun k x hx => by
      obtain ⟨y, hy⟩ := h (k + 1) x (by simpa using hx)
      exact ⟨y, by rw [← hy]; congr 1; omega⟩
    refine ⟨b :: r, ?_⟩
    rw [List.zipIdx_cons, List.mapM_cons]
    have hb : f n a = .ok b := by simpa using hb
    simp [hb, hr]

theorem forFrags_ok {f : Nat → Nat → Fragment → Res Fragment} {fs fs' : V2 Fragment} {FR FC : Nat}
    (hg : FragGrid fs FR FC) (h : forFrags f fs = .ok fs') :
    FragGrid fs' FR FC ∧ ∀ p q x, fragAt fs p q = some x → ∃ y, fragAt fs' p q = some y ∧ f p q x = .ok y := by
  unfold forFrags at h
  obtain ⟨hl, hk⟩ := mapM_zipIdx_ok (fun i row => row.zipIdx.mapM fun x => f i x.2 x.1) fs 0 fs' h
  refine ⟨⟨by rw [hl]; exact hg.1, ?_⟩, ?_⟩
  · intro row' hrow'
    obtain ⟨k, hkl, rfl⟩ := List.getElem_of_mem hrow'
    obtain ⟨y, hy, hfy⟩ := hk k (fs[k]'(by omega)) (by simp)
    have := (mapM_zipIdx_ok (fun j x => f (0 + k) j x) _ 0 y hfy).1
    simp [hkl] at hy
    rw [hy, this]
    exact hg.2 _ (List.getElem_mem _)
  · intro p q x hx
    unfold fragAt at hx ⊢
    cases hrow : fs[p]? with
    | none => rw [hrow] at hx; cases hx
    | some row =>
      rw [hrow] at hx
      obtain ⟨y, hy, hfy⟩ := hk p row hrow
      obtain ⟨z, hz, hfz⟩ := (mapM_zipIdx_ok (fun j x => f (0 + p) j x) _ 0 y hfy).2 q x hx
      refine ⟨z, by rw [hy]; exact hz, ?_⟩
      simpa using hfz

theorem forFrags_total {f : Nat → Nat → Fragment → Res Fragment} {fs : V2 Fragment} {FR FC : Nat}
    (hg : FragGrid fs FR FC) (h : ∀ p q x, p < FR → q < FC → ∃ y, f p q x = .ok y) : ∃ fs', forFrags f fs = .ok fs' := by
  unfold forFrags
  refine mapM_zipIdx_total (fun i row => row.zipIdx.mapM fun x => f i x.2 x.1) fs 0 ?_
  intro k row hrow
  refine mapM_zipIdx_total (fun j x => f (0 + k) j x) row 0 ?_
  intro j x hx
  have h1 := (List.getElem?_eq_some_iff.1 hrow).1
  have h2 := (List.getElem?_eq_some_iff.1 hx).1
  have h3 := hg.2 row (List.mem_of_getElem? hrow)
  exact h _ _ x (by have := hg.1; omega) (by omega)

theorem fragAt_lt {fs : V2 Fragment} {FR FC : Nat} (hg : FragGrid fs FR FC) {p q : Nat} :
    (∃ x, fragAt fs p q = some x) ↔ p < FR ∧ q < FC := by
  unfold fragAt
  constructor
  · rintro ⟨x, hx⟩
    cases hrow : fs[p]? with
    | none => rw [hrow] at hx; cases hx
    | some row =>
      rw [hrow] at hx
      have h1 := (List.getElem?_eq_some_iff.1 hrow).1
      have h2 := (List.getElem?_eq_some_iff.1 hx).1
      have h3 := hg.2 row (List.mem_of_getElem? hrow)
      have := hg.1
      omega
  · rintro ⟨hp, hq⟩
    have hp' : p < fs.length := by rw [hg.1]; exact hp
    have := hg.2 _ (List.getElem_mem hp')
    exact ⟨(fs[p])[q], by simp [hp', this, hq]⟩

/-! ### C66: the bitmap is cut into bands -/

theorem band_iff (a k i : Nat) (ha : 0 < a) : (k * a ≤ i ∧ i ≤ (k + 1) * a - 1) ↔ k = i / a := by
  have h1 : (k + 1) * a = k * a + a := by ring
  constructor
  · rintro ⟨h, h'⟩
    exact (Nat.div_eq_of_lt_le h (by omega)).symm
  · rintro rfl
    have h2 := Nat.div_mul_le_self i a
    have h3 := Nat.lt_div_mul_add ha (a := i)
    omega

theorem band_eq (n F p : Nat) (hF : F ≤ n) (hn : n < 18446744073709551616) (hp : p < F) :
    mulSz p (n / F) = p * (n / F) ∧ subSz (mulSz (p + 1) (n / F)) 1 = (p + 1) * (n / F) - 1 := by
  have h0 : 0 < n / F := Nat.div_pos hF (by omega)
  have h1 : F * (n / F) ≤ n := Nat.mul_div_le n F
  have h2 : p * (n / F) ≤ F * (n / F) := Nat.mul_le_mul_right _ (by omega)
  have h3 : (p + 1) * (n / F) ≤ F * (n / F) := Nat.mul_le_mul_right _ (by omega)
  have h4 : 0 < (p + 1) * (n / F) := by positivity
  have hs : sz64 = 18446744073709551616 := by unfold sz64; norm_num
  unfold mulSz subSz
  rw [hs, Nat.mod_eq_of_lt (by omega), Nat.mod_eq_of_lt (by omega), if_pos (by omega)]
  exact ⟨rfl, rfl⟩

theorem indicies_spec {g : Generator} {FR FC : Nat} (hfr : 0 < FR) (hfc : 0 < FC) (hg : FragGrid g.frags FR FC) :
    ∃ g', initFragmentsIndicies g = .ok g' ∧ FragGrid g'.frags FR FC ∧ ∀ p q f, fragAt g'.frags p q = some f →
      p < FR ∧ q < FC ∧
      f.bound.iBegin = mulSz p (g.bitmap.isize / FR) ∧ f.bound.jBegin = mulSz q (g.bitmap.jsize / FC) ∧
      f.bound.iEnd = subSz (mulSz (p + 1) (g.bitmap.isize / FR)) 1 ∧
      f.bound.jEnd = subSz (mulSz (q + 1) (g.bitmap.jsize / FC)) 1 ∧ f.zond.bound = f.bound := by
  have hcol : V2.colCount g.frags = .ok FC := by
    have h1 := hg.1
    have h2 := hg.2
    cases hfs : g.frags with
    | nil => rw [hfs] at h1; simp at h1; omega
    | cons row rest => unfold V2.colCount; dsimp only; rw [h2 row (by rw [hfs]; simp)]
  obtain ⟨fs, hfs⟩ := forFrags_total (f := fun i j f => pure (f.setIndicies (mulSz i (g.bitmap.isize / FR))
    (mulSz j (g.bitmap.jsize / FC)) (subSz (mulSz (i + 1) (g.bitmap.isize / FR)) 1)
    (subSz (mulSz (j + 1) (g.bitmap.jsize / FC)) 1))) hg fun p q x _ _ => ⟨_, rfl⟩
  obtain ⟨hgrid, hval⟩ := forFrags_ok hg hfs
  refine ⟨{ g with frags := fs }, ?_, hgrid, ?_⟩
  · unfold initFragmentsIndicies
    dsimp only
    rw [show V2.rowCount g.frags = FR from hg.1, if_neg (by omega), hcol]
    simp only [Res.ok_bind]
    rw [if_neg (by omega), hfs]
    rfl
  · intro p q f hf
    obtain ⟨hp, hq⟩ := (fragAt_lt hgrid).1 ⟨f, hf⟩
    obtain ⟨x, hx⟩ := (fragAt_lt hg).2 ⟨hp, hq⟩
    obtain ⟨y, hy, hxy⟩ := hval p q x hx
    rw [show fragAt fs p q = some f from hf] at hy
    cases hy
    have hxy := Res.ok.inj hxy
    subst hxy
    exact ⟨hp, hq, rfl, rfl, rfl, rfl, rfl⟩

/-- **C66** With at least as many bitmap rows and columns as fragment rows and columns, `InitFragmentsIndicies` gives every
bitmap cell of the first `R - R % FR` rows and `C - C % FC` columns to exactly one fragment … -/
theorem C66_bands {g : Generator} {FR FC : Nat} (hfr : 0 < FR) (hfc : 0 < FC) (hg : FragGrid g.frags FR FC)
    (hR : FR ≤ g.bitmap.isize) (hC : FC ≤ g.bitmap.jsize) (hR' : g.bitmap.isize < 2 ^ 64) (hC' : g.bitmap.jsize < 2 ^ 64) :
    ∃ g', initFragmentsIndicies g = .ok g' ∧
      (∀ i j, i < g.bitmap.isize - g.bitmap.isize % FR → j < g.bitmap.jsize - g.bitmap.jsize % FC →
        ∃! pq : Nat × Nat, ∃ f, fragAt g'.frags pq.1 pq.2 = some f ∧ InBand f.bound i j) ∧
      (∀ i j, ¬ (i < g.bitmap.isize - g.bitmap.isize % FR ∧ j < g.bitmap.jsize - g.bitmap.jsize % FC) →
        ∀ p q f, fragAt g'.frags p q = some f → ¬ InBand f.bound i j) := by
  obtain ⟨g', hg', hgrid, hval⟩ := indicies_spec hfr hfc hg
  have e64 : (2 : Nat) ^ 64 = 18446744073709551616 := by norm_num
  rw [e64] at hR' hC'
  generalize hRR : g.bitmap.isize = R at *
  generalize hCC : g.bitmap.jsize = C at *
  have ha : 0 < R / FR := Nat.div_pos hR hfr
  have hb : 0 < C / FC := Nat.div_pos hC hfc
  have key : ∀ i j p q f, fragAt g'.frags p q = some f → (InBand f.bound i j ↔ p = i / (R / FR) ∧ q = j / (C / FC)) := by
    intro i j p q f hf
    obtain ⟨hp, hq, e1, e2, e3, e4, -⟩ := hval p q f hf
    obtain ⟨a1, a2⟩ := band_eq R FR p hR hR' hp
    obtain ⟨b1, b2⟩ := band_eq C FC q hC hC' hq
    rw [a1] at e1; rw [b1] at e2; rw [a2] at e3; rw [b2] at e4
    unfold InBand
    rw [e1, e2, e3, e4, ← band_iff _ p i ha, ← band_iff _ q j hb]
    tauto
  have cov : ∀ n F i : Nat, 0 < n / F → (i / (n / F) < F ↔ i < n - n % F) := by
    intro n F i h
    rw [Nat.div_lt_iff_lt_mul h]
    have := Nat.div_add_mod n F
    have h2 : F * (n / F) = n - n % F := by omega
    rw [h2]
  refine ⟨g', hg', ?_, ?_⟩
  · intro i j hi hj
    obtain ⟨f, hf⟩ := (fragAt_lt hgrid).2 ⟨(cov R FR i ha).2 hi, (cov C FC j hb).2 hj⟩
    refine ⟨(i / (R / FR), j / (C / FC)), ⟨f, hf, (key i j _ _ f hf).2 ⟨rfl, rfl⟩⟩, ?_⟩
    rintro ⟨p, q⟩ ⟨f', hf', hin⟩
    obtain ⟨h1, h2⟩ := (key i j p q f' hf').1 hin
    rw [h1, h2]
  · intro i j hij p q f hf hin
    obtain ⟨h1, h2⟩ := (key i j p q f hf).1 hin
    obtain ⟨hp, hq⟩ := (fragAt_lt hgrid).1 ⟨f, hf⟩
    rw [h1] at hp; rw [h2] at hq
    exact hij ⟨(cov R FR i ha).1 hp, (cov C FC j hb).1 hq⟩

/-- **C66** … so every cell has a fragment exactly if the divisions leave no remainder: the test at
LayoutBitmapGenerator.cpp:47, which is commented out. -/
theorem C66_bands_complete {g g' : Generator} {FR FC : Nat} (hfr : 0 < FR) (hfc : 0 < FC) (hg : FragGrid g.frags FR FC)
    (hR : FR ≤ g.bitmap.isize) (hC : FC ≤ g.bitmap.jsize) (hR' : g.bitmap.isize < 2 ^ 64) (hC' : g.bitmap.jsize < 2 ^ 64)
    (h : initFragmentsIndicies g = .ok g') :
    (∀ i j, i < g.bitmap.isize → j < g.bitmap.jsize → ∃ p q f, fragAt g'.frags p q = some f ∧ InBand f.bound i j) ↔
      FR ∣ g.bitmap.isize ∧ FC ∣ g.bitmap.jsize := by
  obtain ⟨g'', hg'', h1, h2⟩ := C66_bands hfr hfc hg hR hC hR' hC'
  rw [h] at hg''
  cases hg''
  constructor
  · intro hall
    have hlast := hall (g.bitmap.isize - 1) (g.bitmap.jsize - 1) (by omega) (by omega)
    obtain ⟨p, q, f, hf, hin⟩ := hlast
    by_contra hnot
    refine h2 (g.bitmap.isize - 1) (g.bitmap.jsize - 1) ?_ p q f hf hin
    rintro ⟨ha, hb⟩
    exact hnot ⟨Nat.dvd_of_mod_eq_zero (by omega), Nat.dvd_of_mod_eq_zero (by omega)⟩
  · rintro ⟨ha, hb⟩ i j hi hj
    have ha := Nat.mod_eq_zero_of_dvd ha
    have hb := Nat.mod_eq_zero_of_dvd hb
    obtain ⟨pq, ⟨f, hf, hin⟩, -⟩ := h1 i j (by omega) (by omega)
    exact ⟨pq.1, pq.2, f, hf, hin⟩

/-- **C66** More fragment rows than bitmap rows: the end of every fragment wraps around, and every fragment claims every
row. -/
theorem C66_bands_too_many {g g' : Generator} {FR FC : Nat} (hfc : 0 < FC) (hg : FragGrid g.frags FR FC)
    (hR : g.bitmap.isize < FR) (h : initFragmentsIndicies g = .ok g') (p q : Nat) (f : Fragment)
    (hf : fragAt g'.frags p q = some f) : f.bound.iBegin = 0 ∧ f.bound.iEnd = 2 ^ 64 - 1 := by
  obtain ⟨g'', hg'', hgrid, hval⟩ := indicies_spec (by omega) hfc hg
  rw [h] at hg''
  cases hg''
  obtain ⟨hp, hq, e1, e2, e3, e4, -⟩ := hval p q f hf
  rw [Nat.div_eq_of_lt hR] at e1 e3
  rw [e1, e3]
  have hs : sz64 = 18446744073709551616 := by unfold sz64; norm_num
  unfold mulSz subSz
  rw [hs]
  norm_num

/-- **C66** More fragment columns than bitmap columns: likewise every fragment claims every column. -/
theorem C66_bands_too_many_columns {g g' : Generator} {FR FC : Nat} (hfr : 0 < FR) (hg : FragGrid g.frags FR FC)
    (hC : g.bitmap.jsize < FC) (h : initFragmentsIndicies g = .ok g') (p q : Nat) (f : Fragment)
    (hf : fragAt g'.frags p q = some f) : f.bound.jBegin = 0 ∧ f.bound.jEnd = 2 ^ 64 - 1 := by
  obtain ⟨g'', hg'', hgrid, hval⟩ := indicies_spec hfr (by omega) hg
  rw [h] at hg''
  cases hg''
  obtain ⟨hp, hq, e1, e2, e3, e4, -⟩ := hval p q f hf
  rw [Nat.div_eq_of_lt hC] at e2 e4
  rw [e2, e4]
  have hs : sz64 = 18446744073709551616 := by unfold sz64; norm_num
  unfold mulSz subSz
  rw [hs]
  norm_num

/-- **C66** The state `Process` is really in: `Init` has emptied the fragment matrix (C40), and the division by its row count
is undefined. -/
theorem C66_bands_empty (g : Generator) (h : g.frags = []) : initFragmentsIndicies g = .ub := by
  unfold initFragmentsIndicies
  dsimp only
  rw [h]
  rfl

/-- seven rows among two fragment rows: the last row belongs to no fragment -/
example : ∃ g', initFragmentsIndicies { frags := [[{}], [{}]], bitmap := { BitMatrix.empty with isize := 7, jsize := 4 } } =
    .ok g' ∧ g'.frags.flatten.map (·.bound) = [⟨0, 2, 0, 3⟩, ⟨3, 5, 0, 3⟩] := ⟨_, rfl, by decide +kernel⟩

/-! ### C66: the rectangle is cut into parts -/

theorem truncQ_mono {x y : ℚ} (h : x ≤ y) : Fl.truncQ x ≤ Fl.truncQ y := by
  unfold Fl.truncQ
  split_ifs with h1 h2 h2
  · exact Int.floor_mono h
  · linarith
  · have : ⌈x⌉ ≤ 0 := Int.ceil_le.2 (by push_cast; linarith)
    have : 0 ≤ ⌊y⌋ := Int.floor_nonneg.2 h2
    omega
  · exact Int.ceil_mono h

theorem truncQ_int (n : ℤ) : Fl.truncQ n = n := by
  unfold Fl.truncQ
  split_ifs <;> simp

theorem truncQ_err (x : ℚ) : |(Fl.truncQ x : ℚ) - x| < 1 := by
  unfold Fl.truncQ
  split_ifs with h
  · rw [abs_lt]
    constructor <;> linarith [Int.floor_le x, Int.lt_floor_add_one x]
  · rw [abs_lt]
    constructor <;> linarith [Int.le_ceil x, Int.ceil_lt_add_one x]

theorem truncQ_inI32 {x : ℚ} {a b : Int} (ha : inI32 a) (hb : inI32 b) (h1 : (a : ℚ) - 1 < x) (h2 : x < b + 1) :
    inI32 (Fl.truncQ x) := by
  unfold inI32 at *
  unfold Fl.truncQ
  split_ifs with h
  · have h3 : ⌊x⌋ < b + 1 := Int.floor_lt.2 (by push_cast; exact h2)
    have h4 : 0 ≤ ⌊x⌋ := Int.floor_nonneg.2 h
    omega
  · have h3 : a - 1 < ⌈x⌉ := Int.lt_ceil.2 (by push_cast; exact h1)
    have h4 : ⌈x⌉ ≤ 0 := Int.ceil_le.2 (by push_cast; linarith)
    omega

/-- `k` times the rounded width of a part -/
theorem prod_near {rnd : ℚ → ℚ} (hr : Rounding rnd) (W : ℚ) (F k : Nat) (hF : 0 < F) (hk : k ≤ F) (hW : 0 ≤ W)
    (hW' : W ≤ 2 ^ 32) : |rnd (k * rnd (W / F)) - k * (W / F)| ≤ 3 * 2 ^ 32 / 2 ^ 53 := by
  have hFq : (0 : ℚ) < F := by exact_mod_cast hF
  have hkq : (k : ℚ) ≤ F := by exact_mod_cast hk
  have hk0 : (0 : ℚ) ≤ k := by positivity
  have h1 := hr.relErr (W / F)
  have hd : 0 ≤ W / F := by positivity
  rw [abs_of_nonneg hd] at h1
  have ha : k * (W / F) ≤ W := by
    rw [mul_div_assoc', div_le_iff₀ hFq]
    nlinarith
  have ha0 : 0 ≤ k * (W / F) := by positivity
  set d := rnd (W / F)
  have h2 : |k * d - k * (W / F)| ≤ k * (W / F) / 2 ^ 53 := by
    rw [← mul_sub, abs_mul, abs_of_nonneg hk0, mul_div_assoc]
    exact mul_le_mul_of_nonneg_left h1 hk0
  have h3 := hr.relErr (k * d)
  generalize k * (W / F) = a at *
  have h4 : |k * d| ≤ 2 * 2 ^ 32 := by
    have := abs_le.1 h2
    rw [abs_le]
    constructor <;> linarith
  rw [abs_le] at h2 h3 ⊢
  constructor <;> linarith

/-- both kinds of edge coordinates: `x` is `base + ...` or `base - ...` -/
theorem edge_near {rnd : ℚ → ℚ} (hr : Rounding rnd) (z y : ℚ) (hz : |z - y| ≤ 3 * 2 ^ 32 / 2 ^ 53) (hy : |y| ≤ 2 ^ 33) :
    |rnd z - y| ≤ 1 / 2 ^ 18 := by
  have h1 := hr.relErr z
  have h2 : |z| ≤ 2 * 2 ^ 33 := by
    have := abs_le.1 hz
    have := abs_le.1 hy
    rw [abs_le]
    constructor <;> linarith
  rw [abs_le] at h1 hz ⊢
  constructor <;> linarith

theorem abs_if (d : Int) : ((if d < 0 then -d else d : Int) : ℚ) = |(d : ℚ)| := by
  split_ifs with h
  · rw [abs_of_neg (by exact_mod_cast h)]; push_cast; rfl
  · rw [abs_of_nonneg (by exact_mod_cast not_lt.1 h)]

theorem calcDelta_div {rnd : ℚ → ℚ} (hr : Rounding rnd) {a b : Int} {F : Nat} {d : Fl} (hF : 0 < F) (hF' : F < 2 ^ 32)
    (h : calcDelta rnd a b F = .ok d) : d = .fin (rnd (|(b - a : ℚ)| / F)) ∧ inI32 (b - a) := by
  unfold calcDelta sub32 chk32 at h
  split_ifs at h with hi
  · simp only [Res.ok_bind, Res.pure_eq] at h
    have h := Res.ok.inj h
    rw [← h]
    refine ⟨?_, hi⟩
    have e1 : F % 4294967296 = F := Nat.mod_eq_of_lt hF'
    unfold inI32 at hi
    unfold Fl.ofInt
    rw [e1, abs_if]
    have e2 : rnd |((b - a : Int) : ℚ)| = |((b - a : Int) : ℚ)| := by
      have := hr.int |b - a| (by rw [abs_abs]; rw [abs_le]; constructor <;> norm_num <;> omega)
      push_cast at this ⊢
      exact this
    have e3 : rnd ((F : Int) : ℚ) = F := by
      have := hr.nat F (by omega)
      push_cast
      exact this
    rw [e2, e3]
    unfold Fl.div
    dsimp only
    rw [if_neg (by positivity)]
    push_cast
    rfl
  · simp at h

/-- the edges of the columns and rows: `s` is 1 (columns, to the right) or -1 (rows, downwards) -/
structure Edges (base goal : Int) (F : Nat) (s : Int) (e : Nat → Int) : Prop where
  first : e 0 = base
  mono : ∀ k, k < F → 0 ≤ s * (e (k + 1) - e k)
  near : ∀ k, k ≤ F → |(e k : ℚ) - (base + k * ((goal - base : ℚ) / F))| ≤ 1 + 1 / 2 ^ 18

theorem edges_add {rnd : ℚ → ℚ} (hr : Rounding rnd) {a b : Int} {F : Nat} {d : Fl} (hF : 0 < F) (hF' : F < 2 ^ 32)
    (ha : inI32 a) (hb : inI32 b) (hab : a ≤ b) (h : calcDelta rnd a b F = .ok d) :
    ∃ e : Nat → Int, (∀ k, k ≤ F → edge rnd Fl.add a k d = .ok (e k)) ∧ Edges a b F 1 e ∧
      ∀ k : Nat, e k = Fl.truncQ (rnd (a + rnd (k * rnd ((b - a : ℚ) / F)))) := by
  obtain ⟨hd, hi⟩ := calcDelta_div hr hF hF' h
  have hW : (0 : ℚ) ≤ b - a := by have : (a : ℚ) ≤ b := by exact_mod_cast hab
                                  linarith
  have hW' : (b - a : ℚ) ≤ 2 ^ 32 := by
    have : ((b - a : Int) : ℚ) ≤ (2147483647 : Int) := by exact_mod_cast hi.2
    push_cast at this
    linarith
  rw [abs_of_nonneg hW] at hd
  have hFq : (0 : ℚ) < F := by exact_mod_cast hF
  have ha' : |(a : ℚ)| ≤ 2147483648 := by
    unfold inI32 at ha
    rw [abs_le]
    constructor
    · have : ((-2147483648 : Int) : ℚ) ≤ a := by exact_mod_cast ha.1
      push_cast at this; linarith
    · have : (a : ℚ) ≤ (2147483647 : Int) := by exact_mod_cast ha.2
      push_cast at this; linarith
  have hra : rnd (a : ℚ) = a := hr.int a (by unfold inI32 at ha; rw [abs_le]; constructor <;> norm_num <;> omega)
  let e : Nat → Int := fun k => Fl.truncQ (rnd (a + rnd (k * rnd ((b - a : ℚ) / F))))
  have hnear : ∀ k : Nat, k ≤ F → |rnd (a + rnd (k * rnd ((b - a : ℚ) / F))) - (a + k * ((b - a : ℚ) / F))| ≤ 1 / 2 ^ 18 := by
    intro k hk
    have h1 := prod_near hr (b - a) F k hF hk hW hW'
    apply edge_near hr
    · have : (a : ℚ) + rnd (k * rnd ((b - a : ℚ) / F)) - (a + k * ((b - a : ℚ) / F)) =
        rnd (k * rnd ((b - a : ℚ) / F)) - k * ((b - a : ℚ) / F) := by ring
      rw [this]; exact h1
    · have h2 : k * ((b - a : ℚ) / F) ≤ b - a := by
        have hkq : (k : ℚ) ≤ F := by exact_mod_cast hk
        rw [mul_div_assoc', div_le_iff₀ hFq]
        nlinarith
      have h3 : 0 ≤ k * ((b - a : ℚ) / F) := by positivity
      have := abs_le.1 ha'
      rw [abs_le]
      constructor <;> linarith
  have hbetween : ∀ k : Nat, k ≤ F → 0 ≤ k * ((b - a : ℚ) / F) ∧ k * ((b - a : ℚ) / F) ≤ b - a := by
    intro k hk
    have hkq : (k : ℚ) ≤ F := by exact_mod_cast hk
    refine ⟨by positivity, ?_⟩
    rw [mul_div_assoc', div_le_iff₀ hFq]
    nlinarith
  refine ⟨e, ?_, ⟨?_, ?_, ?_⟩, fun k => rfl⟩
  · intro k hk
    unfold edge Fl.ofInt Fl.mul Fl.add
    rw [hd]
    dsimp only
    have e1 : rnd ((k : Int) : ℚ) = k := by
      have := hr.nat k (by omega)
      push_cast
      exact this
    rw [e1, hra]
    unfold Fl.toI32
    dsimp only
    rw [if_pos]
    have h1 := abs_le.1 (hnear k hk)
    have h2 := hbetween k hk
    exact truncQ_inI32 ha hb (by linarith) (by linarith)
  · show Fl.truncQ (rnd (a + rnd ((0 : Nat) * _))) = a
    push_cast
    rw [zero_mul, hr.zero, add_zero, hra, truncQ_int]
  · intro k hk
    have h1 : rnd (k * rnd ((b - a : ℚ) / F)) ≤ rnd ((k + 1 : Nat) * rnd ((b - a : ℚ) / F)) := by
      apply hr.mono
      have : 0 ≤ rnd ((b - a : ℚ) / F) := by
        have := hr.mono 0 ((b - a : ℚ) / F) (by positivity)
        rwa [hr.zero] at this
      push_cast
      linarith
    have h2 : e k ≤ e (k + 1) := truncQ_mono (hr.mono _ _ (by linarith))
    omega
  · intro k hk
    have h1 := abs_le.1 (hnear k hk)
    have h2 := abs_lt.1 (truncQ_err (rnd (a + rnd (k * rnd ((b - a : ℚ) / F)))))
    show |((Fl.truncQ (rnd (a + rnd (k * rnd ((b - a : ℚ) / F)))) : Int) : ℚ) - _| ≤ _
    rw [abs_le]
    constructor <;> linarith

theorem edges_sub {rnd : ℚ → ℚ} (hr : Rounding rnd) {a b : Int} {F : Nat} {d : Fl} (hF : 0 < F) (hF' : F < 2 ^ 32)
    (ha : inI32 a) (hb : inI32 b) (hab : b ≤ a) (h : calcDelta rnd a b F = .ok d) :
    ∃ e : Nat → Int, (∀ k, k ≤ F → edge rnd Fl.sub a k d = .ok (e k)) ∧ Edges a b F (-1) e ∧
      ∀ k : Nat, e k = Fl.truncQ (rnd (a - rnd (k * rnd ((a - b : ℚ) / F)))) := by
  obtain ⟨hd, hi⟩ := calcDelta_div hr hF hF' h
  have hW : (0 : ℚ) ≤ a - b := by have : (b : ℚ) ≤ a := by exact_mod_cast hab
                                  linarith
  have hW' : (a - b : ℚ) ≤ 2 ^ 32 := by
    have : ((-2147483648 : Int) : ℚ) ≤ ((b - a : Int) : ℚ) := by exact_mod_cast hi.1
    push_cast at this
    linarith
  rw [abs_sub_comm, abs_of_nonneg hW] at hd
  have hFq : (0 : ℚ) < F := by exact_mod_cast hF
  have ha' : |(a : ℚ)| ≤ 2147483648 := by
    unfold inI32 at ha
    rw [abs_le]
    constructor
    · have : ((-2147483648 : Int) : ℚ) ≤ a := by exact_mod_cast ha.1
      push_cast at this; linarith
    · have : (a : ℚ) ≤ (2147483647 : Int) := by exact_mod_cast ha.2
      push_cast at this; linarith
  have hra : rnd (a : ℚ) = a := hr.int a (by unfold inI32 at ha; rw [abs_le]; constructor <;> norm_num <;> omega)
  have hbetween : ∀ k : Nat, k ≤ F → 0 ≤ k * ((a - b : ℚ) / F) ∧ k * ((a - b : ℚ) / F) ≤ a - b := by
    intro k hk
    have hkq : (k : ℚ) ≤ F := by exact_mod_cast hk
    refine ⟨by positivity, ?_⟩
    rw [mul_div_assoc', div_le_iff₀ hFq]
    nlinarith
  let e : Nat → Int := fun k => Fl.truncQ (rnd (a - rnd (k * rnd ((a - b : ℚ) / F))))
  have hnear : ∀ k : Nat, k ≤ F → |rnd (a - rnd (k * rnd ((a - b : ℚ) / F))) - (a - k * ((a - b : ℚ) / F))| ≤ 1 / 2 ^ 18 := by
    intro k hk
    have h1 := prod_near hr (a - b) F k hF hk hW hW'
    apply edge_near hr
    · have : (a : ℚ) - rnd (k * rnd ((a - b : ℚ) / F)) - (a - k * ((a - b : ℚ) / F)) =
        -(rnd (k * rnd ((a - b : ℚ) / F)) - k * ((a - b : ℚ) / F)) := by ring
      rw [this, abs_neg]; exact h1
    · have h2 := hbetween k hk
      have := abs_le.1 ha'
      rw [abs_le]
      constructor <;> linarith
  refine ⟨e, ?_, ⟨?_, ?_, ?_⟩, fun k => rfl⟩
  · intro k hk
    unfold edge Fl.ofInt Fl.mul Fl.sub
    rw [hd]
    dsimp only
    have e1 : rnd ((k : Int) : ℚ) = k := by
      have := hr.nat k (by omega)
      push_cast
      exact this
    rw [e1, hra]
    unfold Fl.toI32
    dsimp only
    rw [if_pos]
    have h1 := abs_le.1 (hnear k hk)
    have h2 := hbetween k hk
    exact truncQ_inI32 hb ha (by linarith) (by linarith)
  · show Fl.truncQ (rnd (a - rnd ((0 : Nat) * _))) = a
    push_cast
    rw [zero_mul, hr.zero, sub_zero, hra, truncQ_int]
  · intro k hk
    have h1 : rnd (k * rnd ((a - b : ℚ) / F)) ≤ rnd ((k + 1 : Nat) * rnd ((a - b : ℚ) / F)) := by
      apply hr.mono
      have : 0 ≤ rnd ((a - b : ℚ) / F) := by
        have := hr.mono 0 ((a - b : ℚ) / F) (by positivity)
        rwa [hr.zero] at this
      push_cast
      linarith
    have h2 : e (k + 1) ≤ e k := truncQ_mono (hr.mono _ _ (by linarith))
    omega
  · intro k hk
    have h1 := abs_le.1 (hnear k hk)
    have h2 := abs_lt.1 (truncQ_err (rnd (a - rnd (k * rnd ((a - b : ℚ) / F)))))
    have h3 : (a : ℚ) + k * ((b - a : ℚ) / F) = a - k * ((a - b : ℚ) / F) := by ring
    show |((Fl.truncQ (rnd (a - rnd (k * rnd ((a - b : ℚ) / F)))) : Int) : ℚ) - _| ≤ _
    rw [h3, abs_le]
    constructor <;> linarith

/-- The last edge is at most one unit off. -/
theorem Edges.last {base goal : Int} {F : Nat} {s : Int} {e : Nat → Int} (h : Edges base goal F s e) (hF : 0 < F) :
    |e F - goal| ≤ 1 := by
  have h1 := h.near F le_rfl
  have hFq : (0 : ℚ) < F := by exact_mod_cast hF
  have h2 : (base : ℚ) + F * ((goal - base : ℚ) / F) = goal := by field_simp; ring
  rw [h2] at h1
  have h3 := abs_le.1 h1
  have h4 : ((e F - goal : Int) : ℚ) < (2 : Int) := by push_cast; linarith
  have h5 : ((-2 : Int) : ℚ) < ((e F - goal : Int) : ℚ) := by push_cast; linarith
  have h4 : e F - goal < 2 := by exact_mod_cast h4
  have h5 : -2 < e F - goal := by exact_mod_cast h5
  rw [abs_le]
  omega

/-- **C66** `InitFragmentsWorkspaces`, with `dx` and `dy` as `Process` computes them (LayoutBitmapGenerator.cpp:60-61): for every
rounding of the arithmetic the call is defined, the fragments are bounded by common edges `xs` and `ys` that start at the
left top corner and run to the right and downwards, and no edge is more than a unit (and rounding) from where it belongs. -/
theorem C66_workspaces {rnd : ℚ → ℚ} (hr : Rounding rnd) {g : Generator} {FR FC : Nat} (hfr : 0 < FR) (hfc : 0 < FC)
    (hfr' : FR < 2 ^ 32) (hfc' : FC < 2 ^ 32) (hg : FragGrid g.frags FR FC)
    (h1 : inI32 g.ws.leftTop.x) (h2 : inI32 g.ws.leftTop.y) (h3 : inI32 g.ws.rightBot.x) (h4 : inI32 g.ws.rightBot.y)
    (hx : g.ws.leftTop.x ≤ g.ws.rightBot.x) (hy : g.ws.rightBot.y ≤ g.ws.leftTop.y)
    (hdx : calcDelta rnd g.ws.leftTop.x g.ws.rightBot.x FC = .ok g.dx)
    (hdy : calcDelta rnd g.ws.leftTop.y g.ws.rightBot.y FR = .ok g.dy) :
    ∃ g' xs ys, initFragmentsWorkspaces rnd g = .ok g' ∧ FragGrid g'.frags FR FC ∧
      Edges g.ws.leftTop.x g.ws.rightBot.x FC 1 xs ∧ Edges g.ws.leftTop.y g.ws.rightBot.y FR (-1) ys ∧
      (∀ k : Nat, xs k = Fl.truncQ (rnd (g.ws.leftTop.x +
        rnd (k * rnd ((g.ws.rightBot.x - g.ws.leftTop.x : ℚ) / FC))))) ∧
      (∀ k : Nat, ys k = Fl.truncQ (rnd (g.ws.leftTop.y -
        rnd (k * rnd ((g.ws.leftTop.y - g.ws.rightBot.y : ℚ) / FR))))) ∧
      ∀ p q f, fragAt g'.frags p q = some f →
        f.angle = ⟨⟨xs q, ys p⟩, ⟨xs (q + 1), ys (p + 1)⟩⟩ ∧ f.zond.ws = f.angle ∧ f.matrix = some 0 := by
  obtain ⟨xs, hxs, hex, hfx⟩ := edges_add hr hfc hfc' h1 h3 hx hdx
  obtain ⟨ys, hys, hey, hfy⟩ := edges_sub hr hfr hfr' h2 h4 hy hdy
  have hbody : ∀ p q (x : Fragment), p < FR → q < FC → (do
      let x0 ← edge rnd Fl.add g.ws.leftTop.x q g.dx
      let y0 ← edge rnd Fl.sub g.ws.leftTop.y p g.dy
      let x1 ← edge rnd Fl.add g.ws.leftTop.x (q + 1) g.dx
      let y1 ← edge rnd Fl.sub g.ws.leftTop.y (p + 1) g.dy
      let ws := (Workspace.new.setAngleCoords ⟨x0, y0⟩ ⟨x1, y1⟩).2
      pure { x.setWorkspaceCoords ws with matrix := some 0 }) =
      Res.ok { x.setWorkspaceCoords ⟨⟨xs q, ys p⟩, ⟨xs (q + 1), ys (p + 1)⟩⟩ with matrix := some 0 } := by
    intro p q x hp hq
    rw [hxs q (by omega), hys p (by omega), hxs (q + 1) (by omega), hys (p + 1) (by omega)]
    simp only [Res.ok_bind, Res.pure_eq]
    have e1 := hex.mono q hq
    have e2 := hey.mono p hp
    unfold Workspace.setAngleCoords
    dsimp only
    rw [if_neg (by omega)]
  obtain ⟨fs, hfs⟩ := forFrags_total (f := fun i j f => do
      let x0 ← edge rnd Fl.add g.ws.leftTop.x j g.dx
      let y0 ← edge rnd Fl.sub g.ws.leftTop.y i g.dy
      let x1 ← edge rnd Fl.add g.ws.leftTop.x (j + 1) g.dx
      let y1 ← edge rnd Fl.sub g.ws.leftTop.y (i + 1) g.dy
      let ws := (Workspace.new.setAngleCoords ⟨x0, y0⟩ ⟨x1, y1⟩).2
      pure { f.setWorkspaceCoords ws with matrix := some 0 }) hg fun p q x hp hq => ⟨_, hbody p q x hp hq⟩
  obtain ⟨hgrid, hval⟩ := forFrags_ok hg hfs
  refine ⟨{ g with frags := fs }, xs, ys, ?_, hgrid, hex, hey, hfx, hfy, ?_⟩
  · unfold initFragmentsWorkspaces
    rw [hfs]
    rfl
  · intro p q f hf
    obtain ⟨hp, hq⟩ := (fragAt_lt hgrid).1 ⟨f, hf⟩
    obtain ⟨x, hx⟩ := (fragAt_lt hg).2 ⟨hp, hq⟩
    obtain ⟨y, hy, hxy⟩ := hval p q x hx
    rw [show fragAt fs p q = some f from hf] at hy
    cases hy
    rw [hbody p q x hp hq] at hxy
    have hxy := Res.ok.inj hxy
    subst hxy
    exact ⟨rfl, rfl, rfl⟩

theorem between_edges (e : Nat → Int) (F : Nat) (x : Int) (h0 : e 0 ≤ x) (hF : x ≤ e F) (hpos : 0 < F) :
    ∃ k, k < F ∧ e k ≤ x ∧ x ≤ e (k + 1) := by
  induction F with
  | zero => omega
  | succ n ih =>
    rcases Nat.eq_zero_or_pos n with rfl | hn
    · exact ⟨0, by omega, h0, hF⟩
    · by_cases h : x ≤ e n
      · obtain ⟨k, hk, h1, h2⟩ := ih h hn
        exact ⟨k, by omega, h1, h2⟩
      · exact ⟨n, by omega, by omega, hF⟩

/-- **C66** So every point of the rectangle that is at least one unit from its right and bottom edges lies in a fragment … -/
theorem C66_cover {rnd : ℚ → ℚ} (hr : Rounding rnd) {g g' : Generator} {FR FC : Nat} (hfr : 0 < FR) (hfc : 0 < FC)
    (hfr' : FR < 2 ^ 32) (hfc' : FC < 2 ^ 32) (hg : FragGrid g.frags FR FC)
    (h1 : inI32 g.ws.leftTop.x) (h2 : inI32 g.ws.leftTop.y) (h3 : inI32 g.ws.rightBot.x) (h4 : inI32 g.ws.rightBot.y)
    (hx : g.ws.leftTop.x ≤ g.ws.rightBot.x) (hy : g.ws.rightBot.y ≤ g.ws.leftTop.y)
    (hdx : calcDelta rnd g.ws.leftTop.x g.ws.rightBot.x FC = .ok g.dx)
    (hdy : calcDelta rnd g.ws.leftTop.y g.ws.rightBot.y FR = .ok g.dy)
    (h : initFragmentsWorkspaces rnd g = .ok g') (x y : Int) (hin : InWindow g.ws x y)
    (hx' : x < g.ws.rightBot.x) (hy' : g.ws.rightBot.y < y) :
    ∃ p q f, fragAt g'.frags p q = some f ∧ InWindow f.angle x y := by
  obtain ⟨g'', xs, ys, hg'', hgrid, hex, hey, hfx, hfy, hval⟩ :=
    C66_workspaces hr hfr hfc hfr' hfc' hg h1 h2 h3 h4 hx hy hdx hdy
  rw [h] at hg''
  cases hg''
  have l1 := abs_le.1 (hex.last hfc)
  have l2 := abs_le.1 (hey.last hfr)
  obtain ⟨i1, i2, i3, i4⟩ := hin
  obtain ⟨q, hq, a1, a2⟩ := between_edges xs FC x (by rw [hex.first]; exact i1) (by omega) hfc
  obtain ⟨p, hp, b1, b2⟩ := between_edges (fun k => -ys k) FR (-y) (by rw [hey.first]; omega) (by omega) hfr
  obtain ⟨f, hf⟩ := (fragAt_lt hgrid).2 ⟨hp, hq⟩
  refine ⟨p, q, f, hf, ?_⟩
  rw [(hval p q f hf).1]
  exact ⟨a1, a2, by dsimp only; omega, by dsimp only; omega⟩

/-- **C66** … and in exact arithmetic every point of the rectangle. -/
theorem C66_cover_exact {g g' : Generator} {FR FC : Nat} (hfr : 0 < FR) (hfc : 0 < FC)
    (hfr' : FR < 2 ^ 32) (hfc' : FC < 2 ^ 32) (hg : FragGrid g.frags FR FC)
    (h1 : inI32 g.ws.leftTop.x) (h2 : inI32 g.ws.leftTop.y) (h3 : inI32 g.ws.rightBot.x) (h4 : inI32 g.ws.rightBot.y)
    (hx : g.ws.leftTop.x ≤ g.ws.rightBot.x) (hy : g.ws.rightBot.y ≤ g.ws.leftTop.y)
    (hdx : calcDelta id g.ws.leftTop.x g.ws.rightBot.x FC = .ok g.dx)
    (hdy : calcDelta id g.ws.leftTop.y g.ws.rightBot.y FR = .ok g.dy)
    (h : initFragmentsWorkspaces id g = .ok g') (x y : Int) (hin : InWindow g.ws x y) :
    ∃ p q f, fragAt g'.frags p q = some f ∧ InWindow f.angle x y := by
  obtain ⟨g'', xs, ys, hg'', hgrid, hex, hey, hfx, hfy, hval⟩ :=
    C66_workspaces id_rounding hfr hfc hfr' hfc' hg h1 h2 h3 h4 hx hy hdx hdy
  rw [h] at hg''
  cases hg''
  have hFC : (0 : ℚ) < FC := by exact_mod_cast hfc
  have hFR : (0 : ℚ) < FR := by exact_mod_cast hfr
  have l1 : xs FC = g.ws.rightBot.x := by
    rw [hfx]
    simp only [id]
    rw [mul_div_cancel₀ _ (ne_of_gt hFC), add_sub_cancel, truncQ_int]
  have l2 : ys FR = g.ws.rightBot.y := by
    rw [hfy]
    simp only [id]
    rw [mul_div_cancel₀ _ (ne_of_gt hFR), sub_sub_cancel, truncQ_int]
  obtain ⟨i1, i2, i3, i4⟩ := hin
  obtain ⟨q, hq, a1, a2⟩ := between_edges xs FC x (by rw [hex.first]; exact i1) (by omega) hfc
  obtain ⟨p, hp, b1, b2⟩ := between_edges (fun k => -ys k) FR (-y) (by rw [hey.first]; omega) (by omega) hfr
  obtain ⟨f, hf⟩ := (fragAt_lt hgrid).2 ⟨hp, hq⟩
  refine ⟨p, q, f, hf, ?_⟩
  rw [(hval p q f hf).1]
  exact ⟨a1, a2, by dsimp only; omega, by dsimp only; omega⟩

/-- a 61 × 1 workspace cut into seven columns -/
def gap : Generator :=
  { ws := ⟨⟨0, 1⟩, ⟨61, 0⟩⟩, frags := [List.replicate 7 {}],
    dx := .fin (rne (|(61 : Int) - (0 : Int)| / (7 : Nat))), dy := .fin (rne (|(0 : Int) - (1 : Int)| / (1 : Nat))) }

/-- **C66** In `double` arithmetic the parts can fall short: seven times the seventh of 61 is below 61, the last edge is cut off
to 60, and the points of the right edge lie in no fragment. -/
theorem C66_double_gap : ∃ g', calcDelta rne gap.ws.leftTop.x gap.ws.rightBot.x 7 = .ok gap.dx ∧
    calcDelta rne gap.ws.leftTop.y gap.ws.rightBot.y 1 = .ok gap.dy ∧
    initFragmentsWorkspaces rne gap = .ok g' ∧ InWindow gap.ws 61 0 ∧
    ∀ p q f, fragAt g'.frags p q = some f → ∀ y, ¬ InWindow f.angle 61 y := by
  have hdx : calcDelta rne gap.ws.leftTop.x gap.ws.rightBot.x 7 = .ok gap.dx := by decide +kernel
  have hdy : calcDelta rne gap.ws.leftTop.y gap.ws.rightBot.y 1 = .ok gap.dy := by decide +kernel
  have hgrid : FragGrid gap.frags 1 7 := ⟨rfl, by intro row hrow; unfold gap at hrow; simp at hrow; rw [hrow]; simp⟩
  obtain ⟨g', xs, ys, hg', hgr, hex, hey, hfx, hfy, hval⟩ := C66_workspaces rne_rounding (g := gap) (FR := 1) (FC := 7)
    (by norm_num) (by norm_num) (by norm_num) (by norm_num) hgrid (by decide) (by decide) (by decide) (by decide)
    (by decide) (by decide) hdx hdy
  refine ⟨g', hdx, hdy, hg', by unfold InWindow; decide, ?_⟩
  intro p q f hf y hin
  obtain ⟨hp, hq⟩ := (fragAt_lt hgr).1 ⟨f, hf⟩
  have h7 : xs 7 = 60 := by
    rw [hfx]
    decide +kernel
  have hmono : ∀ k, k ≤ 7 → xs (7 - k) ≤ 60 := by
    intro k
    induction k with
    | zero => intro _; rw [Nat.sub_zero, h7]
    | succ k ih =>
      intro hk
      have h1 := ih (by omega)
      have h2 := hex.mono (7 - (k + 1)) (by omega)
      rw [show 7 - (k + 1) + 1 = 7 - k by omega] at h2
      omega
  have h3 := hmono (7 - (q + 1)) (by omega)
  rw [show 7 - (7 - (q + 1)) = q + 1 by omega] at h3
  rw [(hval p q f hf).1] at hin
  have := hin.2.1
  dsimp only at this
  omega

/-- The closed box of a geometry and a closed rectangle share a point. -/
def BoxTouches (g : Geometry) (ws : Workspace) : Prop :=
  ∃ x y, g.min.x ≤ x ∧ x ≤ g.max.x ∧ g.min.y ≤ y ∧ y ≤ g.max.y ∧ InWindow ws x y

theorem boxMeets_of_touches {g : Geometry} {ws : Workspace} (h : BoxTouches g ws) : boxMeets ws g = true := by
  obtain ⟨x, y, h1, h2, h3, h4, h5, h6, h7, h8⟩ := h
  unfold boxMeets
  rw [if_neg (by omega)]

theorem mem_of_fragAt {fs : V2 Fragment} {p q : Nat} {f : Fragment} (h : fragAt fs p q = some f) : f ∈ fs.flatten := by
  unfold fragAt at h
  cases hrow : fs[p]? with
  | none => rw [hrow] at h; cases h
  | some row =>
    rw [hrow] at h
    exact List.mem_flatten.2 ⟨row, List.mem_of_getElem? hrow, List.mem_of_getElem? h⟩

theorem fragGrid_flatten_length {fs : V2 Fragment} {FR FC : Nat} (h : FragGrid fs FR FC) : fs.flatten.length = FR * FC := by
  obtain ⟨h1, h2⟩ := h
  rw [← h1]
  clear h1
  induction fs with
  | nil => simp
  | cons a fs ih =>
    rw [List.flatten_cons, List.length_append, ih fun r hr => h2 r (by simp [hr]), h2 a (by simp), List.length_cons]
    ring

/-- **C66** "GetFragmentIntersectionCnt will not return 0" (LayoutBitmapGenerator.cpp:184, 205), in exact arithmetic: the box of a
geometry that touches the workspace is counted by at least one fragment (of fewer than 2³²). -/
theorem C66_count_positive {g g' : Generator} {FR FC : Nat} (hfr : 0 < FR) (hfc : 0 < FC)
    (hcnt : FR * FC < 2 ^ 32) (hg : FragGrid g.frags FR FC)
    (h1 : inI32 g.ws.leftTop.x) (h2 : inI32 g.ws.leftTop.y) (h3 : inI32 g.ws.rightBot.x) (h4 : inI32 g.ws.rightBot.y)
    (hx : g.ws.leftTop.x ≤ g.ws.rightBot.x) (hy : g.ws.rightBot.y ≤ g.ws.leftTop.y)
    (hdx : calcDelta id g.ws.leftTop.x g.ws.rightBot.x FC = .ok g.dx)
    (hdy : calcDelta id g.ws.leftTop.y g.ws.rightBot.y FR = .ok g.dy)
    (h : initFragmentsWorkspaces id g = .ok g') (r : Geometry) (ht : BoxTouches r g.ws) :
    0 < getFragmentIntersectionCnt g'.frags (some r) := by
  have hfr' : FR < 2 ^ 32 := lt_of_le_of_lt (Nat.le_mul_of_pos_right FR hfc) hcnt
  have hfc' : FC < 2 ^ 32 := lt_of_le_of_lt (Nat.le_mul_of_pos_left FC hfr) hcnt
  obtain ⟨x, y, b1, b2, b3, b4, hin⟩ := ht
  obtain ⟨p, q, f, hf, hin'⟩ := C66_cover_exact hfr hfc (by omega) (by omega) hg h1 h2 h3 h4 hx hy hdx hdy h x y hin
  obtain ⟨g'', xs, ys, hg'', hgrid, -⟩ :=
    C66_workspaces id_rounding hfr hfc (by omega) (by omega) hg h1 h2 h3 h4 hx hy hdx hdy
  rw [h] at hg''
  cases hg''
  unfold getFragmentIntersectionCnt
  dsimp only
  have hle := List.countP_le_length (p := fun f : Fragment => f.geometryWorkspaceIntersection (some r)) (l := g'.frags.flatten)
  rw [fragGrid_flatten_length hgrid] at hle
  rw [Nat.mod_eq_of_lt (by omega)]
  exact List.countP_pos_iff.2 ⟨f, mem_of_fragAt hf, boxMeets_of_touches ⟨x, y, b1, b2, b3, b4, hin'⟩⟩

/-! ### C67: distribution of the geometries -/

theorem boxMeets_eq (ws : Workspace) (g : Geometry) : boxMeets ws g = decide (Meets ws g) := by
  unfold boxMeets
  split_ifs with h
  · symm; rw [decide_eq_false_iff_not]; unfold Meets; omega
  · symm; rw [decide_eq_true_iff]; unfold Meets; omega

theorem cnt_eq (fs : V2 Fragment) (g : Geometry) (h : fs.flatten.length < 2 ^ 32) :
    getFragmentIntersectionCnt fs (some g) = fragmentsMet fs g := by
  unfold getFragmentIntersectionCnt fragmentsMet
  dsimp only
  have hle := List.countP_le_length (p := fun f : Fragment => f.geometryWorkspaceIntersection (some g)) (l := fs.flatten)
  rw [Nat.mod_eq_of_lt (by omega), List.countP_eq_length_filter]
  congr 1
  apply List.filter_congr
  intro f _
  unfold Fragment.geometryWorkspaceIntersection
  dsimp only
  rw [boxMeets_eq]

/-- every fragment gets the given geometries, in order -/
def giveAll (push : Option Geometry → Fragment → Fragment) (moved : List Geometry) (fs : V2 Fragment) : V2 Fragment :=
  fs.map fun row => row.map fun f => moved.foldl (fun f g => push (some g) f) f

/-- `push` appends to a list and leaves the rectangle alone -/
structure Pushes (push : Option Geometry → Fragment → Fragment) : Prop where
  angle : ∀ g f, (push g f).angle = f.angle

theorem pushes_item : Pushes Fragment.pushItem := ⟨fun _ _ => rfl⟩
theorem pushes_legacy : Pushes Fragment.pushLegacy := ⟨fun _ _ => rfl⟩

theorem pushToFrags_angles {push : Option Geometry → Fragment → Fragment} (hp : Pushes push) (ws : Workspace) (g : Geometry)
    (fs : V2 Fragment) : (pushToFrags push ws g fs).flatten.map (·.angle) = fs.flatten.map (·.angle) := by
  unfold pushToFrags
  rw [← List.map_flatten, List.map_map]
  apply List.map_congr_left
  intro f _
  simp only [Function.comp]
  split_ifs <;> simp [hp.angle]

theorem met_of_angles {fs fs' : V2 Fragment} (h : fs'.flatten.map (·.angle) = fs.flatten.map (·.angle)) (g : Geometry) :
    fragmentsMet fs' g = fragmentsMet fs g := by
  unfold fragmentsMet
  have key : ∀ l : List Fragment, (l.filter fun f => decide (Meets f.angle g)).length =
      ((l.map (·.angle)).filter fun w => decide (Meets w g)).length := by
    intro l
    rw [List.filter_map, List.length_map]
    rfl
  rw [key, key, h]

theorem distribute_spec {push : Option Geometry → Fragment → Fragment} (hp : Pushes push) (ws : Workspace)
    (l : List Geometry) (fs : V2 Fragment) (hfs : fs.flatten.length < 2 ^ 32) :
    distribute push ws l fs = .ub ∨ ∃ stay moved : List Geometry,
      distribute push ws l fs = .ok (stay, giveAll push (moved.filter fun g => decide (Meets ws g)) fs) ∧
      (stay ++ moved).Perm l ∧ stay.Sublist l ∧ moved.Sublist l ∧
      (∀ g ∈ moved, fragmentsMet fs g ≤ 2) ∧ moved.length ≤ stay.length := by
  induction hn : l.length using Nat.strong_induction_on generalizing l fs with
  | _ n ih =>
    cases l with
    | nil => exact Or.inr ⟨[], [], by simp [distribute, giveAll], by simp, by simp, by simp, by simp, by simp⟩
    | cons g rest =>
      unfold distribute
      rw [cnt_eq fs g hfs]
      split_ifs with hbig
      · rcases ih rest.length (by simp at hn; omega) rest fs hfs rfl with h | ⟨stay, moved, h, h1, h2, h3, h4, h5⟩
        · left; rw [h]; rfl
        · right
          refine ⟨g :: stay, moved, by rw [h]; rfl, by simpa using h1, by simpa using h2, h3.cons g, h4, ?_⟩
          simp
          omega
      · cases rest with
        | nil => left; rfl
        | cons h rest =>
          dsimp only
          have hang := pushToFrags_angles hp ws g fs
          have hlen : (pushToFrags push ws g fs).flatten.length < 2 ^ 32 := by
            have := congrArg List.length hang
            simp only [List.length_map] at this
            rw [this]; exact hfs
          rcases ih rest.length (by simp at hn; omega) rest _ hlen rfl with hh | ⟨stay, moved, hh, h1, h2, h3, h4, h5⟩
          · left; rw [hh]; rfl
          · right
            refine ⟨h :: stay, g :: moved, ?_, ?_, ?_, ?_, ?_, ?_⟩
            · rw [hh]
              simp only [Res.ok_bind, Res.pure_eq]
              congr 2
              unfold giveAll pushToFrags
              rw [List.map_map]
              apply List.map_congr_left
              intro row _
              simp only [Function.comp]
              rw [List.map_map]
              apply List.map_congr_left
              intro f _
              simp only [Function.comp]
              rw [boxMeets_eq]
              by_cases hm : Meets ws g
              · simp [hm]
              · simp [hm]
            · have : (h :: stay ++ g :: moved).Perm (g :: h :: (stay ++ moved)) := by
                refine (List.perm_middle (l₁ := h :: stay)).trans ?_
                simp
              exact this.trans ((h1.cons h).cons g)
            · exact (h2.cons_cons h).cons g
            · exact (h3.cons h).cons_cons g
            · intro x hx
              rcases List.mem_cons.1 hx with rfl | hx
              · omega
              · rw [← met_of_angles hang]; exact h4 x hx
            · simpa using h5

theorem giveAll_item (moved : List Geometry) (f : Fragment) :
    moved.foldl (fun f g => Fragment.pushItem (some g) f) f = { f with items := f.items ++ moved.map some } := by
  induction moved generalizing f with
  | nil => simp
  | cons g moved ih => rw [List.foldl_cons, ih]; unfold Fragment.pushItem; simp

theorem giveAll_legacy (moved : List Geometry) (f : Fragment) :
    moved.foldl (fun f g => Fragment.pushLegacy (some g) f) f = { f with legacy := f.legacy ++ moved.map some } := by
  induction moved generalizing f with
  | nil => simp
  | cons g moved ih => rw [List.foldl_cons, ih]; unfold Fragment.pushLegacy; simp

theorem giveAll_flatten_length (push : Option Geometry → Fragment → Fragment) (moved : List Geometry) (fs : V2 Fragment) :
    (giveAll push moved fs).flatten.length = fs.flatten.length := by
  unfold giveAll
  rw [← List.map_flatten, List.length_map]

theorem giveAll_angles {push : Option Geometry → Fragment → Fragment} (hp : Pushes push) (moved : List Geometry)
    (fs : V2 Fragment) : (giveAll push moved fs).flatten.map (·.angle) = fs.flatten.map (·.angle) := by
  unfold giveAll
  rw [← List.map_flatten, List.map_map]
  apply List.map_congr_left
  intro f _
  have key : ∀ (moved : List Geometry) (f : Fragment), (moved.foldl (fun f g => push (some g) f) f).angle = f.angle := by
    intro moved
    induction moved with
    | nil => intro f; rfl
    | cons g moved ih => intro f; rw [List.foldl_cons, ih, hp.angle]
  exact key moved f

/-- **C67** `DistributeGeometries`, whenever it is defined: each of the two lists is split, in order, into geometries that stay in the
generator and geometries that are given away; only geometries that meet at most two fragments are given away, never more
than stay; and what is given away goes to *every* fragment, whether it meets the fragment or not (if it meets the workspace —
otherwise to none, and it is gone). -/
theorem C67_distribution (g g' : Generator) (hfs : g.frags.flatten.length < 2 ^ 32) (h : distributeGeometries g = .ok g') :
    ∃ movedShared movedRaw : List Geometry,
      (g'.geoms ++ movedShared).Perm g.geoms ∧ (g'.legacy ++ movedRaw).Perm g.legacy ∧
      g'.geoms.Sublist g.geoms ∧ movedShared.Sublist g.geoms ∧ g'.legacy.Sublist g.legacy ∧ movedRaw.Sublist g.legacy ∧
      (∀ x ∈ movedShared ++ movedRaw, fragmentsMet g.frags x ≤ 2) ∧
      movedShared.length ≤ g'.geoms.length ∧ movedRaw.length ≤ g'.legacy.length ∧
      g'.frags = g.frags.map (fun row => row.map fun f => { f with
        items := f.items ++ (movedShared.filter fun x => Meets g.ws x).map some,
        legacy := f.legacy ++ (movedRaw.filter fun x => Meets g.ws x).map some }) := by
  unfold distributeGeometries at h
  rcases distribute_spec pushes_item g.ws g.geoms g.frags hfs with h1 | ⟨s1, m1, e1, a1, a2, a3, a4, a5⟩
  · rw [h1] at h; cases h
  · rw [e1] at h
    simp only [Res.ok_bind] at h
    have hfs' := hfs
    rw [← giveAll_flatten_length Fragment.pushItem (m1.filter fun x => decide (Meets g.ws x))] at hfs'
    rcases distribute_spec pushes_legacy g.ws g.legacy _ hfs' with h2 | ⟨s2, m2, e2, b1, b2, b3, b4, b5⟩
    · rw [h2] at h; cases h
    · rw [e2] at h
      simp only [Res.ok_bind, Res.pure_eq] at h
      have h := Res.ok.inj h
      subst h
      refine ⟨m1, m2, a1, b1, a2, a3, b2, b3, ?_, a5, b5, ?_⟩
      · intro x hx
        rcases List.mem_append.1 hx with hx | hx
        · exact a4 x hx
        · rw [← met_of_angles (giveAll_angles pushes_item _ g.frags)]; exact b4 x hx
      · dsimp only
        unfold giveAll
        rw [List.map_map]
        apply List.map_congr_left
        intro row _
        simp only [Function.comp]
        rw [List.map_map]
        apply List.map_congr_left
        intro f _
        simp only [Function.comp]
        rw [giveAll_item, giveAll_legacy]

/-- the recursive form of the even and odd positions -/
theorem evens_cons2 {α : Type} (a b : α) (l : List α) : evens (a :: b :: l) = a :: evens l := by
  unfold evens
  have : ((a :: b :: l).length + 1) / 2 = (l.length + 1) / 2 + 1 := by simp; omega
  rw [this, List.range_succ_eq_map, List.filterMap_cons]
  simp only [Nat.mul_zero, List.getElem?_cons_zero, List.filterMap_map]
  congr 1

theorem odds_cons2 {α : Type} (a b : α) (l : List α) : odds (a :: b :: l) = b :: odds l := by
  unfold odds
  have : (a :: b :: l).length / 2 = l.length / 2 + 1 := by simp; omega
  rw [this, List.range_succ_eq_map, List.filterMap_cons]
  simp only [Nat.mul_zero, Nat.zero_add, List.getElem?_cons_succ, List.getElem?_cons_zero, List.filterMap_map]
  congr 1

theorem distribute_small {push : Option Geometry → Fragment → Fragment} (hp : Pushes push) (ws : Workspace)
    (l : List Geometry) (fs : V2 Fragment) (hfs : fs.flatten.length < 2 ^ 32) (hs : ∀ g ∈ l, fragmentsMet fs g ≤ 2) :
    distribute push ws l fs = if l.length % 2 = 0 then
      .ok (odds l, giveAll push ((evens l).filter fun g => decide (Meets ws g)) fs) else .ub := by
  induction hn : l.length using Nat.strong_induction_on generalizing l fs with
  | _ n ih =>
    cases l with
    | nil => subst hn; simp [distribute, evens, odds, giveAll]
    | cons g rest =>
      unfold distribute
      rw [cnt_eq fs g hfs, if_neg (by have := hs g (by simp); omega)]
      cases rest with
      | nil => simp at hn; subst hn; rfl
      | cons h rest =>
        dsimp only
        have hang := pushToFrags_angles hp ws g fs
        have hlen : (pushToFrags push ws g fs).flatten.length < 2 ^ 32 := by
          have := congrArg List.length hang
          simp only [List.length_map] at this
          rw [this]; exact hfs
        simp only [List.length_cons] at hn
        rw [ih rest.length (by omega) rest _ hlen
          (fun x hx => by rw [met_of_angles hang]; exact hs x (by simp [hx])) rfl]
        subst hn
        rw [show (rest.length + 1 + 1) % 2 = rest.length % 2 by omega]
        split_ifs
        · rw [odds_cons2, evens_cons2]
          simp only [Res.ok_bind, Res.pure_eq]
          congr 2
          unfold giveAll pushToFrags
          rw [List.map_map]
          apply List.map_congr_left
          intro row _
          simp only [Function.comp]
          rw [List.map_map]
          apply List.map_congr_left
          intro f _
          simp only [Function.comp]
          rw [boxMeets_eq]
          by_cases hm : Meets ws g <;> simp [hm]
        · rfl

/-- **C67** If no geometry meets more than two fragments, the call is defined exactly for lists of even length (otherwise it
increments the end iterator), and only every second geometry is given away. -/
theorem C67_small (g : Generator) (hfs : g.frags.flatten.length < 2 ^ 32)
    (hs : ∀ x ∈ g.geoms ++ g.legacy, fragmentsMet g.frags x ≤ 2) :
    distributeGeometries g = if g.geoms.length % 2 = 0 ∧ g.legacy.length % 2 = 0 then
      .ok { g with geoms := odds g.geoms, legacy := odds g.legacy,
                   frags := g.frags.map fun row => row.map fun f => { f with
                     items := f.items ++ ((evens g.geoms).filter fun x => Meets g.ws x).map some,
                     legacy := f.legacy ++ ((evens g.legacy).filter fun x => Meets g.ws x).map some } }
    else .ub := by
  unfold distributeGeometries
  rw [distribute_small pushes_item g.ws g.geoms g.frags hfs fun x hx => hs x (by simp [hx])]
  by_cases h1 : g.geoms.length % 2 = 0
  · rw [if_pos h1]
    simp only [Res.ok_bind]
    rw [distribute_small pushes_legacy g.ws g.legacy _ (by rw [giveAll_flatten_length]; exact hfs) fun x hx => by
      rw [met_of_angles (giveAll_angles pushes_item _ g.frags)]; exact hs x (by simp [hx])]
    by_cases h2 : g.legacy.length % 2 = 0
    · rw [if_pos h2, if_pos ⟨h1, h2⟩]
      simp only [Res.ok_bind, Res.pure_eq]
      congr 2
      unfold giveAll
      rw [List.map_map]
      apply List.map_congr_left
      intro row _
      simp only [Function.comp]
      rw [List.map_map]
      apply List.map_congr_left
      intro f _
      simp only [Function.comp]
      rw [giveAll_item, giveAll_legacy]
    · rw [if_neg h2, if_neg (fun h => h2 h.2)]
      rfl
  · rw [if_neg h1, if_neg (fun h => h1 h.1)]
    rfl

/-- **C67** In the state `Process` is really in — `Init` has emptied the fragment matrix (C40) — every second geometry would be
lost: it leaves the generator and no fragment receives it. -/
theorem C67_no_fragments (g : Generator) (h : g.frags = []) :
    distributeGeometries g = if g.geoms.length % 2 = 0 ∧ g.legacy.length % 2 = 0 then
      .ok { g with geoms := odds g.geoms, legacy := odds g.legacy } else .ub := by
  rw [C67_small g (by rw [h]; simp) (by intro x _; unfold fragmentsMet; rw [h]; simp)]
  split_ifs
  · congr 2
    rw [h]
    rfl
  · rfl

theorem distribute_last_big {push : Option Geometry → Fragment → Fragment} (hp : Pushes push) (ws : Workspace)
    (l : List Geometry) (fs : V2 Fragment) (hfs : fs.flatten.length < 2 ^ 32)
    (hb : ∀ x, l.getLast? = some x → 2 < fragmentsMet fs x) : ∃ r, distribute push ws l fs = .ok r := by
  induction hn : l.length using Nat.strong_induction_on generalizing l fs with
  | _ n ih =>
    cases l with
    | nil => exact ⟨_, rfl⟩
    | cons g rest =>
      unfold distribute
      rw [cnt_eq fs g hfs]
      cases rest with
      | nil =>
        rw [if_pos (hb g rfl)]
        exact ⟨_, rfl⟩
      | cons h rest =>
        simp only [List.length_cons] at hn
        split_ifs with hbig
        · obtain ⟨r, hr⟩ := ih (h :: rest).length (by simp; omega) (h :: rest) fs hfs
            (fun x hx => hb x (by rw [List.getLast?_cons_cons]; exact hx)) rfl
          exact ⟨_, by rw [hr]; rfl⟩
        · dsimp only
          have hang := pushToFrags_angles hp ws g fs
          have hlen : (pushToFrags push ws g fs).flatten.length < 2 ^ 32 := by
            have := congrArg List.length hang
            simp only [List.length_map] at this
            rw [this]; exact hfs
          obtain ⟨r, hr⟩ := ih rest.length (by omega) rest _ hlen (fun x hx => by
            rw [met_of_angles hang]
            apply hb
            cases rest with
            | nil => cases hx
            | cons a rest => rw [List.getLast?_cons_cons, List.getLast?_cons_cons]; exact hx) rfl
          exact ⟨_, by rw [hr]; rfl⟩

/-- **C67** The call is defined whenever the last geometry of each list meets more than two fragments. -/
theorem C67_last_big (g : Generator) (hfs : g.frags.flatten.length < 2 ^ 32)
    (h1 : ∀ x, g.geoms.getLast? = some x → 2 < fragmentsMet g.frags x)
    (h2 : ∀ x, g.legacy.getLast? = some x → 2 < fragmentsMet g.frags x) : ∃ g', distributeGeometries g = .ok g' := by
  unfold distributeGeometries
  rcases distribute_spec pushes_item g.ws g.geoms g.frags hfs with h | ⟨s1, m1, e1, -⟩
  · obtain ⟨r, hr⟩ := distribute_last_big pushes_item g.ws g.geoms g.frags hfs h1
    rw [hr] at h; cases h
  · rw [e1]
    simp only [Res.ok_bind]
    obtain ⟨r, hr⟩ := distribute_last_big pushes_legacy g.ws g.legacy
      (giveAll Fragment.pushItem (m1.filter fun x => decide (Meets g.ws x)) g.frags)
      (by rw [giveAll_flatten_length]; exact hfs) (fun x hx => by
        rw [met_of_angles (giveAll_angles pushes_item _ g.frags)]; exact h2 x hx)
    rw [hr]
    exact ⟨_, rfl⟩

/-- two fragments side by side and two small rectangles in the left one: the first goes to *both* fragments, the second stays -/
def twoFrags : Generator :=
  { ws := ⟨⟨0, 10⟩, ⟨20, 0⟩⟩,
    frags := [[{ angle := ⟨⟨0, 10⟩, ⟨10, 0⟩⟩ }, { angle := ⟨⟨10, 10⟩, ⟨20, 0⟩⟩ }]],
    legacy := [{ type := .rectangle, min := ⟨1, 1⟩, max := ⟨2, 2⟩ }, { type := .rectangle, min := ⟨3, 3⟩, max := ⟨4, 4⟩ }] }

example : ∃ g', distributeGeometries twoFrags = .ok g' ∧ g'.legacy.map (·.min.x) = [3] ∧
    g'.frags.flatten.map (fun f => f.legacy.map fun x => x.map (·.min.x)) = [[some 1], [some 1]] :=
  ⟨_, rfl, by decide +kernel, by decide +kernel⟩

/-! ### C68: which fragment a rectangle lies in -/

theorem quotient_spec (t : Int) (d : ℚ) (ht : 0 ≤ t) (hd : 0 < d) (hb : (t : ℚ) / d < 18446744073709551616) :
    ∃ n, quotient id t (.fin d) = .ok n ∧ ∀ k : Nat, (k * d ≤ t ∧ (t : ℚ) < (k + 1) * d ↔ k = n) := by
  have htq : (0 : ℚ) ≤ t := by exact_mod_cast ht
  have hq : 0 ≤ (t : ℚ) / d := by positivity
  have hf0 : 0 ≤ ⌊(t : ℚ) / d⌋ := Int.floor_nonneg.2 hq
  refine ⟨⌊(t : ℚ) / d⌋.toNat, ?_, ?_⟩
  · unfold quotient Fl.ofInt Fl.div Fl.toSize
    simp only [id]
    rw [if_neg (ne_of_gt hd)]
    have e : Fl.truncQ ((t : ℚ) / d) = ⌊(t : ℚ) / d⌋ := by unfold Fl.truncQ; rw [if_pos hq]
    dsimp only
    rw [e, if_pos ⟨hf0, Int.floor_lt.2 (by push_cast; exact hb)⟩]
  · intro k
    rw [← le_div_iff₀ hd, ← div_lt_iff₀ hd]
    constructor
    · rintro ⟨h1, h2⟩
      have : ⌊(t : ℚ) / d⌋ = k := Int.floor_eq_iff.2 ⟨by push_cast; exact h1, by push_cast; exact h2⟩
      omega
    · rintro rfl
      have h1 := Int.floor_le ((t : ℚ) / d)
      have h2 := Int.lt_floor_add_one ((t : ℚ) / d)
      have h3 : ((⌊(t : ℚ) / d⌋.toNat : Nat) : ℚ) = ((⌊(t : ℚ) / d⌋ : Int) : ℚ) := by
        have : ((⌊(t : ℚ) / d⌋.toNat : Nat) : Int) = ⌊(t : ℚ) / d⌋ := Int.toNat_of_nonneg hf0
        exact_mod_cast this
      rw [h3]
      exact ⟨h1, h2⟩

theorem quotient_zero (d : ℚ) (hd : 0 < d) : quotient id 0 (.fin d) = .ok 0 := by
  obtain ⟨n, h1, h2⟩ := quotient_spec 0 d le_rfl hd (by norm_num)
  rw [h1, (h2 0).1 (by push_cast; constructor <;> linarith)]

/-- the set-up of both theorems below: exact arithmetic, `FR × FC` fragments of equal size, a rectangle with corners `lt` and
`rb` inside the workspace (the right and bottom edges excluded) -/
structure PushSetUp (g : Generator) (r : Geometry) (FR FC : Nat) (lt rb : Coord) : Prop where
  rows : 0 < FR
  cols : 0 < FC
  rows' : FR < 2 ^ 32
  cols' : FC < 2 ^ 32
  grid : FragGrid g.frags FR FC
  width : inI32 (g.ws.rightBot.x - g.ws.leftTop.x)
  height : inI32 (g.ws.leftTop.y - g.ws.rightBot.y)
  dx : g.dx = .fin ((g.ws.rightBot.x - g.ws.leftTop.x : ℚ) / FC)
  dy : g.dy = .fin ((g.ws.leftTop.y - g.ws.rightBot.y : ℚ) / FR)
  corner0 : r.coords[0]? = some lt
  corner2 : r.coords[2]? = some rb
  left : g.ws.leftTop.x ≤ lt.x
  horiz : lt.x ≤ rb.x
  right : rb.x < g.ws.rightBot.x
  bottom : g.ws.rightBot.y < rb.y
  vert : rb.y ≤ lt.y
  top : lt.y ≤ g.ws.leftTop.y

theorem colCount_grid {fs : V2 Fragment} {FR FC : Nat} (hfr : 0 < FR) (hg : FragGrid fs FR FC) : V2.colCount fs = .ok FC := by
  obtain ⟨h1, h2⟩ := hg
  cases fs with
  | nil => simp at h1; omega
  | cons row rest => unfold V2.colCount; dsimp only; rw [h2 row (by simp)]

theorem rectFragments_spec {g : Generator} {r : Geometry} {FR FC : Nat} {lt rb : Coord} (s : PushSetUp g r FR FC lt rb) :
    ∃ iB iE jB jE, rectFragments id g r =
        .ok (iB, if rb.y < g.ws.leftTop.y then iE else FR - 1, jB, jE) ∧
      ∀ p q : Nat, (InPart g.ws FR FC p q lt ↔ p = iB ∧ q = jB) ∧ (InPart g.ws FR FC p q rb ↔ p = iE ∧ q = jE) := by
  have hw := s.width
  have hh := s.height
  unfold inI32 at hw hh
  have l1 := s.left; have l2 := s.horiz; have l3 := s.right; have l4 := s.bottom; have l5 := s.vert; have l6 := s.top
  have hFC : (0 : ℚ) < FC := by exact_mod_cast s.cols
  have hFR : (0 : ℚ) < FR := by exact_mod_cast s.rows
  have hWq : (1 : ℚ) ≤ g.ws.rightBot.x - g.ws.leftTop.x := by
    have : (1 : Int) ≤ g.ws.rightBot.x - g.ws.leftTop.x := by omega
    exact_mod_cast this
  have hHq : (1 : ℚ) ≤ g.ws.leftTop.y - g.ws.rightBot.y := by
    have : (1 : Int) ≤ g.ws.leftTop.y - g.ws.rightBot.y := by omega
    exact_mod_cast this
  have hdx : 0 < (g.ws.rightBot.x - g.ws.leftTop.x : ℚ) / FC := by positivity
  have hdy : 0 < (g.ws.leftTop.y - g.ws.rightBot.y : ℚ) / FR := by positivity
  have bound : ∀ (t : Int) (W : ℚ) (F : Nat), 0 < F → F < 2 ^ 32 → 0 ≤ t → t ≤ 2147483647 → 1 ≤ W →
      (t : ℚ) / (W / F) < 18446744073709551616 := by
    intro t W F hF hF' ht ht' hW
    have hFq : (0 : ℚ) < F := by exact_mod_cast hF
    have hFq' : (F : ℚ) ≤ 4294967296 := by
      have : F ≤ 4294967296 := by omega
      exact_mod_cast this
    have htq : (0 : ℚ) ≤ t := by exact_mod_cast ht
    have htq' : (t : ℚ) ≤ 2147483647 := by exact_mod_cast ht'
    rw [div_div_eq_mul_div, div_lt_iff₀ (by linarith)]
    nlinarith
  obtain ⟨jB, q1, s1⟩ := quotient_spec (lt.x - g.ws.leftTop.x) _ (by omega) hdx
    (bound _ _ FC s.cols s.cols' (by omega) (by omega) hWq)
  obtain ⟨jE, q2, s2⟩ := quotient_spec (rb.x - g.ws.leftTop.x) _ (by omega) hdx
    (bound _ _ FC s.cols s.cols' (by omega) (by omega) hWq)
  obtain ⟨iB, q3, s3⟩ := quotient_spec (g.ws.leftTop.y - lt.y) _ (by omega) hdy
    (bound _ _ FR s.rows s.rows' (by omega) (by omega) hHq)
  obtain ⟨iE, q4, s4⟩ := quotient_spec (g.ws.leftTop.y - rb.y) _ (by omega) hdy
    (bound _ _ FR s.rows s.rows' (by omega) (by omega) hHq)
  have sub_ok : ∀ a b : Int, -2147483648 ≤ a - b → a - b ≤ 2147483647 → sub32 a b = .ok (a - b) := by
    intro a b h1 h2
    unfold sub32 chk32
    rw [if_pos (show inI32 (a - b) from ⟨h1, h2⟩)]
  refine ⟨iB, iE, jB, jE, ?_, ?_⟩
  · unfold rectFragments Res.idx
    rw [s.corner0, s.corner2, colCount_grid s.rows s.grid]
    simp only [Res.ok_bind]
    rw [sub_ok lt.x g.ws.leftTop.x (by omega) (by omega), sub_ok rb.x g.ws.leftTop.x (by omega) (by omega),
      sub_ok g.ws.leftTop.y lt.y (by omega) (by omega), sub_ok g.ws.leftTop.y rb.y (by omega) (by omega)]
    simp only [Res.ok_bind, Res.pure_eq]
    have e1 : startIdx id (lt.x - g.ws.leftTop.x) g.dx = .ok jB := by
      unfold startIdx
      split_ifs with h
      · rw [s.dx]; exact q1
      · have h0 : lt.x - g.ws.leftTop.x = 0 := by omega
        rw [h0, quotient_zero _ hdx] at q1
        exact q1
    have e3 : startIdx id (g.ws.leftTop.y - lt.y) g.dy = .ok iB := by
      unfold startIdx
      split_ifs with h
      · rw [s.dy]; exact q3
      · have h0 : g.ws.leftTop.y - lt.y = 0 := by omega
        rw [h0, quotient_zero _ hdy] at q3
        exact q3
    have e2 : endCol id g FC (rb.x - g.ws.leftTop.x) = .ok jE := by
      unfold endCol
      rw [if_pos (by omega), sub_ok g.ws.rightBot.x g.ws.leftTop.x (by omega) (by omega)]
      simp only [Res.ok_bind]
      rw [if_pos (by omega), s.dx, q2]
    have hrow : subSz (V2.rowCount g.frags) 1 = FR - 1 := by
      unfold subSz V2.rowCount
      have := s.rows
      rw [s.grid.1, if_pos (by omega)]
    have e4 : endRow id g (V2.rowCount g.frags) (g.ws.leftTop.y - rb.y) =
        .ok (if rb.y < g.ws.leftTop.y then iE else FR - 1) := by
      unfold endRow
      rw [hrow]
      by_cases ht : rb.y < g.ws.leftTop.y
      · rw [if_pos (by omega), sub_ok g.ws.leftTop.y g.ws.rightBot.y (by omega) (by omega)]
        simp only [Res.ok_bind]
        rw [if_pos (by omega), s.dy, q4, if_pos ht]
      · rw [if_neg (by omega), if_neg ht]
    rw [e1, e2, e3, e4]
    rfl
  · intro p q
    have c1 := s1 q
    have c2 := s2 q
    have c3 := s3 p
    have c4 := s4 p
    push_cast at c1 c2 c3 c4
    unfold InPart
    rw [← c1, ← c2, ← c3, ← c4]
    constructor
    · constructor
      · rintro ⟨⟨h1, h2⟩, h3, h4⟩
        exact ⟨⟨by linarith, by linarith⟩, by linarith, by linarith⟩
      · rintro ⟨⟨h1, h2⟩, h3, h4⟩
        exact ⟨⟨by linarith, by linarith⟩, by linarith, by linarith⟩
    · constructor
      · rintro ⟨⟨h1, h2⟩, h3, h4⟩
        exact ⟨⟨by linarith, by linarith⟩, by linarith, by linarith⟩
      · rintro ⟨⟨h1, h2⟩, h3, h4⟩
        exact ⟨⟨by linarith, by linarith⟩, by linarith, by linarith⟩

/-- **C68** For a rectangle inside the workspace that is not a line on its top edge, `pushRectangle` on a shared pointer answers
whether both corners lie in one part of the grid. -/
theorem C68_shared {g : Generator} {r : Geometry} {FR FC : Nat} {lt rb : Coord} (s : PushSetUp g r FR FC lt rb)
    (ht : rb.y < g.ws.leftTop.y) :
    ∃ b, pushRectangleShared id g r = .ok b ∧
      (b = true ↔ ∃ p q : Nat, InPart g.ws FR FC p q lt ∧ InPart g.ws FR FC p q rb) := by
  obtain ⟨iB, iE, jB, jE, h1, h2⟩ := rectFragments_spec s
  rw [if_pos ht] at h1
  refine ⟨decide (iB = iE ∧ jB = jE), ?_, ?_⟩
  · unfold pushRectangleShared
    rw [h1]
    rfl
  · rw [decide_eq_true_iff]
    constructor
    · rintro ⟨rfl, rfl⟩
      exact ⟨iB, jB, (h2 _ _).1.2 ⟨rfl, rfl⟩, (h2 _ _).2.2 ⟨rfl, rfl⟩⟩
    · rintro ⟨p, q, h3, h4⟩
      obtain ⟨rfl, rfl⟩ := (h2 p q).1.1 h3
      exact (h2 _ _).2.1 h4

/-- **C68** A rectangle that is a line on the top edge: the row test is `tmp > 0` where the column test is `tmp >= 0`, and the answer
is `false` whenever there is more than one fragment row, although such a line can lie in one part. -/
theorem C68_top_edge {g : Generator} {r : Geometry} {FR FC : Nat} {lt rb : Coord} (s : PushSetUp g r FR FC lt rb)
    (ht : rb.y = g.ws.leftTop.y) (hFR : 1 < FR) : pushRectangleShared id g r = .ok false := by
  obtain ⟨iB, iE, jB, jE, h1, h2⟩ := rectFragments_spec s
  have hlt : lt.y = g.ws.leftTop.y := by have := s.vert; have := s.top; omega
  rw [if_neg (by omega)] at h1
  have hiB : 0 = iB := by
    have hH : (1 : ℚ) ≤ g.ws.leftTop.y - g.ws.rightBot.y := by
      have : (1 : Int) ≤ g.ws.leftTop.y - g.ws.rightBot.y := by have := s.bottom; omega
      exact_mod_cast this
    have hd : 0 < (g.ws.leftTop.y - g.ws.rightBot.y : ℚ) / FR := by
      have : (0 : ℚ) < FR := by exact_mod_cast s.rows
      positivity
    obtain ⟨h3, h4⟩ := (h2 iB jB).1.2 ⟨rfl, rfl⟩
    refine ((h2 0 jB).1.1 ⟨h3, ?_⟩).1
    rw [hlt]
    push_cast
    constructor <;> linarith
  unfold pushRectangleShared
  rw [h1]
  simp only [Res.ok_bind, Res.pure_eq]
  congr 1
  rw [decide_eq_false_iff_not]
  omega

/-- **C68** `pushRectangle` on a raw pointer never reports a rectangle as pushed, but is undefined for the same rectangles as the
other one (it computes the indices and throws them away). -/
theorem C68_raw (rnd : ℚ → ℚ) (g : Generator) (r : Geometry) :
    (∀ b, pushRectangleRaw rnd g r = .ok b ↔ b = false ∧ ∃ b', pushRectangleShared rnd g r = .ok b') ∧
    (pushRectangleRaw rnd g r = .ub ↔ pushRectangleShared rnd g r = .ub) ∧
    (r.coords.length ≤ 2 → pushRectangleRaw rnd g r = .ub) := by
  refine ⟨?_, ?_, ?_⟩
  · unfold pushRectangleRaw pushRectangleShared
    cases rectFragments rnd g r with
    | ok q => intro b; simp [eq_comm]
    | throw e => intro b; exact ⟨fun h => (by cases h), fun ⟨_, _, h⟩ => (by cases h)⟩
    | ub => intro b; exact ⟨fun h => (by cases h), fun ⟨_, _, h⟩ => (by cases h)⟩
  · unfold pushRectangleRaw pushRectangleShared
    cases rectFragments rnd g r with
    | ok q => simp
    | throw e => exact ⟨fun h => (by cases h), fun h => (by cases h)⟩
    | ub => exact ⟨fun _ => rfl, fun _ => rfl⟩
  · intro h
    unfold pushRectangleRaw rectFragments
    rcases hc : r.coords with _ | ⟨a, _ | ⟨b, _ | ⟨c, t⟩⟩⟩
    · rfl
    · rfl
    · rfl
    · rw [hc] at h; simp at h

/-- a 2 × 2 grid of fragments over `[0,20] × [0,10]` -/
def fourFrags : Generator :=
  { ws := ⟨⟨0, 10⟩, ⟨20, 0⟩⟩, frags := [[{}, {}], [{}, {}]], dx := .fin ((20 - 0) / 2), dy := .fin ((10 - 0) / 2) }

/-- a rectangle inside the left top fragment, one across the middle, and a line on the top edge -/
example : pushRectangleShared id fourFrags { type := .rectangle, coords := [⟨1, 9⟩, ⟨2, 9⟩, ⟨2, 8⟩] } = .ok true ∧
    pushRectangleShared id fourFrags { type := .rectangle, coords := [⟨1, 9⟩, ⟨2, 9⟩, ⟨12, 8⟩] } = .ok false ∧
    pushRectangleShared id fourFrags { type := .rectangle, coords := [⟨1, 10⟩, ⟨2, 10⟩, ⟨2, 10⟩] } = .ok false ∧
    PushSetUp fourFrags { type := .rectangle, coords := [⟨1, 9⟩, ⟨2, 9⟩, ⟨2, 8⟩] } 2 2 ⟨1, 9⟩ ⟨2, 8⟩ ∧
    PushSetUp fourFrags { type := .rectangle, coords := [⟨1, 10⟩, ⟨2, 10⟩, ⟨2, 10⟩] } 2 2 ⟨1, 10⟩ ⟨2, 10⟩ := by
  refine ⟨by decide +kernel, by decide +kernel, by decide +kernel, ?_, ?_⟩
  · constructor <;> first | decide | rfl | exact ⟨rfl, by simp [fourFrags]⟩
  · constructor <;> first | decide | rfl | exact ⟨rfl, by simp [fourFrags]⟩

end Verif.Props
