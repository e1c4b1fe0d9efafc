import Verif.Proofs.Tame
import Verif.Model.Fragment

/-! Proofs for C82: the rasteriser. -/

namespace Verif.Proofs.Range
open Verif Ieee Zond Verif.Spec.Binary64

variable {rnd : ℚ → ℚ}

theorem half_eq (hr : RoundsNormal rnd) : rnd (1 / 2) = rne (1 / 2) ∧ Tame 1 0 (rne (1 / 2)) := by
  have h : Tame 1 0 (1 / 2) := ⟨⟨1, by norm_num⟩, by rw [abs_of_pos] <;> norm_num⟩
  exact ⟨hr _ (h.normal (by norm_num) (by norm_num)), h.rne⟩

theorem size_eq (hr : RoundsNormal rnd) {n : ℕ} (h : n < 2 ^ 64) : Fl.ofInt rnd n = Fl.ofInt rne n :=
  (ofInt_eq (B := 64) hr (by
    rw [abs_of_nonneg (by positivity)]
    have : (n : ℚ) ≤ 2 ^ 64 := by exact_mod_cast h.le
    simpa using this) (by norm_num)).1

theorem i32_abs {n : ℤ} (h : inI32 n) : |(n : ℚ)| ≤ 2 ^ 31 := by
  unfold inI32 at h
  have : |n| ≤ 2 ^ 31 := by rw [abs_le]; norm_num; omega
  exact_mod_cast this

theorem normPair_eq (hr : RoundsNormal rnd) {b e delta eps : Fl} {b1 b2 : ℕ} (hb : TameF 252 300 b) (he : TameF 252 300 e)
    (hd : TameF 252 200 delta) (hp : TameF 252 200 eps) (h1 : b1 < 2 ^ 64) (h2 : b2 < 2 ^ 64) :
    normPair rnd b e delta eps b1 b2 = normPair rne b e delta eps b1 b2 := by
  have e1 := (half_eq hr).1
  obtain ⟨e2, t2⟩ := mul_eq hr hp hd (by norm_num) (by norm_num)
  have t1 : TameF (252 + 252) (200 + 200) (.fin (rne (1 / 2))) := (half_eq hr).2.mono (by norm_num) (by norm_num)
  have e3 := (sub_eq hr t1 t2 (by norm_num) (by norm_num)).1
  have e4 := (add_eq hr t1 t2 (by norm_num) (by norm_num)).1
  have e5 := (sub_eq hr hb hb.trunc (by norm_num) (by norm_num)).1
  have e6 := (sub_eq hr he he.trunc (by norm_num) (by norm_num)).1
  simp only [normPair, e1, e2, e3, e4, e5, e6, size_eq hr h1, size_eq hr h2]

theorem coversAll_eq (hr : RoundsNormal rnd) {z : Zond} {lt rb : Coord} (hx : TameF 252 200 z.dx) (hy : TameF 252 200 z.dy)
    (hp : TameF 252 200 z.eps) (hl : inI32 lt.x ∧ inI32 lt.y) (hb : inI32 rb.x ∧ inI32 rb.y)
    (hw : inI32 z.ws.leftTop.x ∧ inI32 z.ws.leftTop.y ∧ inI32 z.ws.rightBot.x ∧ inI32 z.ws.rightBot.y) :
    coversAll rnd z lt rb = coversAll rne z lt rb := by
  have o : ∀ n, inI32 n → Fl.ofInt rnd n = Fl.ofInt rne n ∧ TameF 504 400 (Fl.ofInt rne n) := fun n h =>
    ⟨(ofInt_eq hr (i32_abs h) (by norm_num)).1, (ofInt_eq hr (i32_abs h) (by norm_num)).2.mono (by norm_num) (by norm_num)⟩
  have t2 : TameF 0 1 (.fin 2) := ⟨⟨2, by norm_num⟩, by norm_num⟩
  have half : ∀ d, TameF 252 200 d → Fl.div rnd d (.fin 2) = Fl.div rne d (.fin 2) ∧ TameF 504 400 (Fl.div rne d (.fin 2)) := fun d h =>
    ⟨(div_eq hr h t2 (by norm_num) (by norm_num)).1, (div_eq hr h t2 (by norm_num) (by norm_num)).2.mono (by norm_num) (by norm_num)⟩
  have tol : ∀ d, TameF 252 200 d → Fl.mul rnd d z.eps = Fl.mul rne d z.eps ∧ TameF 504 401 (Fl.mul rne d z.eps) := fun d h =>
    ⟨(mul_eq hr h hp (by norm_num) (by norm_num)).1, (mul_eq hr h hp (by norm_num) (by norm_num)).2.mono (by norm_num) (by norm_num)⟩
  obtain ⟨w1, w2, w3, w4⟩ := hw
  obtain ⟨ex, tx⟩ := half _ hx
  obtain ⟨ey, ty⟩ := half _ hy
  obtain ⟨fx, sx⟩ := tol _ hx
  obtain ⟨fy, sy⟩ := tol _ hy
  obtain ⟨a1, p1⟩ := add_eq hr (o _ w1).2 tx (by norm_num) (by norm_num)
  obtain ⟨a2, p2⟩ := sub_eq hr (o _ w3).2 tx (by norm_num) (by norm_num)
  obtain ⟨a3, p3⟩ := sub_eq hr (o _ w2).2 ty (by norm_num) (by norm_num)
  obtain ⟨a4, p4⟩ := add_eq hr (o _ w4).2 ty (by norm_num) (by norm_num)
  have b1 := (sub_eq hr p1 sx (by norm_num) (by norm_num)).1
  have b2 := (add_eq hr p2 sx (by norm_num) (by norm_num)).1
  have b3 := (add_eq hr p3 sy (by norm_num) (by norm_num)).1
  have b4 := (sub_eq hr p4 sy (by norm_num) (by norm_num)).1
  simp only [coversAll, (o _ w1).1, (o _ w2).1, (o _ w3).1, (o _ w4).1, (o _ hl.1).1, (o _ hl.2).1, (o _ hb.1).1, (o _ hb.2).1, ex, ey, fx, fy,
    a1, a2, a3, a4, b1, b2, b3, b4]

theorem sub32_cases (a b : Int) : sub32 a b = .ub ∨ ∃ v, sub32 a b = .ok v ∧ inI32 v := by
  unfold sub32 chk32
  split_ifs with h
  · exact .inr ⟨_, rfl, h⟩
  · exact .inl rfl

/-- quotient of a difference of coordinates and the size of a cell -/
theorem quot_eq (hr : RoundsNormal rnd) {n : ℤ} {d : Fl} (h : inI32 n) (hd : TameF 252 200 d) :
    Fl.div rnd (Fl.ofInt rnd n) d = Fl.div rne (Fl.ofInt rne n) d ∧ TameF 252 300 (Fl.div rne (Fl.ofInt rne n) d) := by
  obtain ⟨e1, t1⟩ := ofInt_eq hr (i32_abs h) (by norm_num)
  obtain ⟨e2, t2⟩ := div_eq hr t1 hd (by norm_num) (by norm_num)
  rw [e1, e2]
  exact ⟨rfl, t2.mono (by norm_num) (by norm_num)⟩

theorem indicies_eq (hr : RoundsNormal rnd) {z : Zond} {lt rb : Coord} (hx : TameF 252 200 z.dx) (hy : TameF 252 200 z.dy)
    (hp : TameF 252 200 z.eps)
    (hb : z.bound.iBegin < 2 ^ 64 ∧ z.bound.iEnd < 2 ^ 64 ∧ z.bound.jBegin < 2 ^ 64 ∧ z.bound.jEnd < 2 ^ 64) :
    (rawIndicies rnd z lt rb >>= fun q => normIndicies rnd z q.1 q.2.1 q.2.2.1 q.2.2.2) =
      (rawIndicies rne z lt rb >>= fun q => normIndicies rne z q.1 q.2.1 q.2.2.1 q.2.2.2) := by
  unfold rawIndicies
  rcases sub32_cases lt.x z.ws.leftTop.x with h | ⟨a, h, ha⟩ <;> rw [h]
  · rfl
  rcases sub32_cases rb.x z.ws.leftTop.x with h | ⟨b, h, hb'⟩ <;> rw [h]
  · rfl
  rcases sub32_cases z.ws.leftTop.y lt.y with h | ⟨c, h, hc⟩ <;> rw [h]
  · rfl
  rcases sub32_cases z.ws.leftTop.y rb.y with h | ⟨d, h, hd⟩ <;> rw [h]
  · rfl
  show normIndicies rnd z _ _ _ _ = normIndicies rne z _ _ _ _
  obtain ⟨e1, t1⟩ := quot_eq hr hc hy
  obtain ⟨e2, t2⟩ := quot_eq hr hd hy
  obtain ⟨e3, t3⟩ := quot_eq hr ha hx
  obtain ⟨e4, t4⟩ := quot_eq hr hb' hx
  dsimp only
  rw [e1, e2, e3, e4]
  unfold normIndicies
  rw [normPair_eq hr t1 t2 hy hp hb.1 hb.2.1, normPair_eq hr t3 t4 hx hp hb.2.2.1 hb.2.2.2]

/-- a rasteriser whose settings are of moderate size -/
structure TameZond (z : Zond) : Prop where
  dx : TameF 252 200 z.dx
  dy : TameF 252 200 z.dy
  eps : TameF 252 200 z.eps
  ws : inI32 z.ws.leftTop.x ∧ inI32 z.ws.leftTop.y ∧ inI32 z.ws.rightBot.x ∧ inI32 z.ws.rightBot.y
  bound : z.bound.iBegin < 2 ^ 64 ∧ z.bound.iEnd < 2 ^ 64 ∧ z.bound.jBegin < 2 ^ 64 ∧ z.bound.jEnd < 2 ^ 64

theorem zondRectangle_eq (hr : RoundsNormal rnd) {z : Zond} (hz : TameZond z) {g : Geometry}
    (hg : ∀ c ∈ g.coords, inI32 c.x ∧ inI32 c.y) : zondRectangle rnd z g = zondRectangle rne z g := by
  unfold zondRectangle
  cases h0 : Res.idx g.coords 0 with
  | ub => rfl
  | throw e => rfl
  | ok lt =>
    cases h2 : Res.idx g.coords 2 with
    | ub => rfl
    | throw e => rfl
    | ok rb =>
      have mem : ∀ i c, Res.idx g.coords i = .ok c → c ∈ g.coords := by
        intro i c h
        unfold Res.idx at h
        split at h
        · rename_i h'
          injection h with h
          subst h
          exact List.mem_of_getElem? h'
        · cases h
      funext s
      show (if coversAll rnd z lt rb then fillAll z.bound else _ : M BitMatrix Unit) s =
        (if coversAll rne z lt rb then fillAll z.bound else _ : M BitMatrix Unit) s
      rw [coversAll_eq hr hz.dx hz.dy hz.eps (hg _ (mem _ _ h0)) (hg _ (mem _ _ h2)) hz.ws]
      split_ifs with hc
      · rfl
      have key := indicies_eq hr (lt := lt) (rb := rb) hz.dx hz.dy hz.eps hz.bound
      have shape : ∀ r : ℚ → ℚ, (do
          let (iB, iE, jB, jE) ← M.lift (rawIndicies r z lt rb)
          let n ← M.lift (normIndicies r z iB iE jB jE)
          fillRange z.bound n : M BitMatrix Unit) s =
          match (rawIndicies r z lt rb >>= fun q => normIndicies r z q.1 q.2.1 q.2.2.1 q.2.2.2) with
          | .ok n => fillRange z.bound n s
          | .throw e => .throw e s
          | .ub => .ub := by
        intro r
        cases hq : rawIndicies r z lt rb with
        | ub => rfl
        | throw e => rfl
        | ok q =>
          obtain ⟨q1, q2, q3, q4⟩ := q
          show (M.lift (normIndicies r z q1 q2 q3 q4) >>= fun n => fillRange z.bound n : M BitMatrix Unit) s =
            match normIndicies r z q1 q2 q3 q4 with
            | .ok n => fillRange z.bound n s
            | .throw e => .throw e s
            | .ub => .ub
          cases normIndicies r z q1 q2 q3 q4 <;> rfl
      exact (shape rnd).trans (by rw [key]; exact (shape rne).symm)

theorem zondGeometry_eq (hr : RoundsNormal rnd) {z : Zond} (hz : TameZond z) {g : Option Geometry}
    (hg : ∀ x, g = some x → ∀ c ∈ x.coords, inI32 c.x ∧ inI32 c.y) : zondGeometry rnd z g = zondGeometry rne z g := by
  unfold zondGeometry
  cases g with
  | none => rfl
  | some g =>
    dsimp only
    rw [zondRectangle_eq hr hz (hg g rfl)]

theorem zondAll_eq (hr : RoundsNormal rnd) {z : Zond} (hz : TameZond z) : ∀ (gs : List (Option Geometry)),
    (∀ x, some x ∈ gs → ∀ c ∈ x.coords, inI32 c.x ∧ inI32 c.y) → zondAll rnd z gs = zondAll rne z gs := by
  intro gs
  induction gs with
  | nil => intro _; rfl
  | cons g gs ih =>
    intro h
    unfold zondAll
    rw [zondGeometry_eq hr hz (fun x hx => h x (by rw [hx]; exact List.mem_cons_self)), ih fun x hx => h x (List.mem_cons_of_mem _ hx)]

/-- the sizes of cells -/
theorem calcDelta_tame (hr : RoundsNormal rnd) (a b : Int) (n : ℕ) :
    calcDelta rnd a b n = calcDelta rne a b n ∧ ∀ v, calcDelta rne a b n = .ok v → TameF 252 200 v := by
  unfold calcDelta
  rcases sub32_cases b a with h | ⟨d, h, hd⟩ <;> rw [h]
  · exact ⟨rfl, fun v hv => by cases hv⟩
  have h1 : |(((if d < 0 then -d else d : ℤ)) : ℚ)| ≤ 2 ^ 31 := by
    have := i32_abs hd
    split_ifs
    · push_cast; rwa [abs_neg]
    · exact this
  have h2 : |(((n % 4294967296 : ℕ) : ℤ) : ℚ)| ≤ 2 ^ 32 := by
    have h3 : n % 4294967296 < 4294967296 := Nat.mod_lt _ (by norm_num)
    have : ((n % 4294967296 : ℕ) : ℚ) ≤ 2 ^ 32 := by
      have h4 : n % 4294967296 ≤ 2 ^ 32 := by norm_num; omega
      exact_mod_cast h4
    rw [Int.cast_natCast, abs_of_nonneg (by positivity)]
    exact this
  obtain ⟨e1, t1⟩ := ofInt_eq hr h1 (by norm_num)
  obtain ⟨e2, t2⟩ := ofInt_eq hr h2 (by norm_num)
  obtain ⟨e3, t3⟩ := div_eq hr t1 t2 (by norm_num) (by norm_num)
  simp only [Res.ok_bind]
  rw [e1, e2, e3]
  refine ⟨rfl, fun v hv => ?_⟩
  injection hv with hv
  subst hv
  exact t3.mono (by norm_num) (by norm_num)

end Verif.Proofs.Range
