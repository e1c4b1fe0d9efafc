import Verif.Props.Same
import Verif.Props.Cut

/-! C87 at the level of files: cutting a rectangle of an MSK file in two. -/

namespace Verif.Props
open Verif BitMatrix Zond Spec Ieee Generator Client

/-- two bitmaps drawn by the generator that show the same cells are equal -/
theorem drawn_eq {rnd : ℚ → ℚ} {mn mx : Coord} {R C : Nat} {L L' : List Geometry} {m m' : BitMatrix}
    (o : Ones (blank R C) m (fun i j => ∃ s ∈ L, ∃ P, Paints R C (zondGeometry rnd (genRaster rnd mn mx R C) (some s)) P ∧ P i j))
    (o' : Ones (blank R C) m' (fun i j => ∃ s ∈ L', ∃ P, Paints R C (zondGeometry rnd (genRaster rnd mn mx R C) (some s)) P ∧ P i j))
    (h : ∀ i j, i < R → j < C → (Lit m i j ↔ Lit m' i j)) : m = m' := by
  have inside : ∀ {s : Geometry} {P : Nat → Nat → Prop},
      Paints R C (zondGeometry rnd (genRaster rnd mn mx R C) (some s)) P → ∀ i j, P i j → i < R ∧ j < C := by
    intro s P hP i j hij
    obtain ⟨m1, e1, o1⟩ := hP _ (blank_shape R C)
    rcases zondGeometry_outcome R C rnd (genRaster rnd mn mx R C) (some s) with (⟨Q, hq, hin⟩ | hu) | ht
    · obtain ⟨m2, e2, o2⟩ := hq _ (blank_shape R C)
      rw [e1] at e2; cases e2
      have h1 := (o1.bits i j).2 (Or.inr hij)
      rcases (o2.bits i j).1 h1 with hb | hb
      · unfold blank at hb; rw [zeroMat_cell] at hb; cases hb
      · exact ⟨(hin i j hb).1, (hin i j hb).2.1⟩
    · rw [hu _ (blank_shape R C)] at e1; cases e1
    · rw [ht _ (blank_shape R C)] at e1; cases e1
  apply eq_of_cells o.wf o'.wf (o.rows.trans o'.rows.symm) (o.cols.trans o'.cols.symm)
  intro i j
  rw [Bool.eq_iff_iff]
  by_cases hb : i < R ∧ j < C
  · have := h i j hb.1 hb.2
    have r1 : m.isize = R := o.rows
    have r2 : m'.isize = R := o'.rows
    have c1 : m.jsize = C := o.cols
    have c2 : m'.jsize = C := o'.cols
    rw [lit_iff o.wf, lit_iff o'.wf, r1, r2, c1, c2] at this
    tauto
  · rw [o.bits, o'.bits]
    constructor
    · rintro (hd | ⟨s, _, P, hP, hij⟩)
      · exact Or.inl hd
      · exact absurd (inside hP i j hij) hb
    · rintro (hd | ⟨s, _, P, hP, hij⟩)
      · exact Or.inl hd
      · exact absurd (inside hP i j hij) hb

/-- the exact cells of a rectangle of a file, drawn alone in `double` arithmetic -/
theorem alone_cells {rnd : ℚ → ℚ} (hr : Rounding rnd) {mn mx : Coord} {R C : Nat} (hg : Grid mn mx R C)
    {q : Msk.Rect × Int} (hw : 0 ≤ q.1.w) (hh : 0 ≤ q.1.h) (hf : RectFits q.1) (hd : Client.StartsInside mn mx R C q.1)
    (hcl : SidesClear (window mn mx) R C (Client.lt q.1) (Client.rb q.1)) (i j : Nat) (hi : i < R) (hj : j < C) :
    LightsAlone rnd mn mx R C (boxR q) i j ↔
      AxisCell (rowOf (window mn mx) R (Client.lt q.1).y) (rowOf (window mn mx) R (Client.rb q.1).y) 0 R i ∧
      AxisCell (colOf (window mn mx) C (Client.lt q.1).x) (colOf (window mn mx) C (Client.rb q.1).x) 0 C j := by
  obtain ⟨m1, m2⟩ := hg.max
  have rp := hg.rpos
  have cp := hg.cpos
  have wp := hg.wpos
  have hp := hg.hpos
  have hb : Built (blank R C) := built_blank (by omega) (by omega)
  have wq : (0 : ℚ) < (wsW (wsOf mn mx) : ℤ) := by
    have : 0 < wsW (wsOf mn mx) := by simp only [wsW, wsOf]; omega
    exact_mod_cast this
  have hq : (0 : ℚ) < (wsH (wsOf mn mx) : ℤ) := by
    have : 0 < wsH (wsOf mn mx) := by simp only [wsH, wsOf]; omega
    exact_mod_cast this
  have cq : (0 : ℚ) < C := by exact_mod_cast cp
  have rq : (0 : ℚ) < R := by exact_mod_cast rp
  have kc : (C : ℤ) ≤ C * C := by
    have : (1 : ℤ) ≤ C := by omega
    nlinarith
  have kr : (R : ℤ) ≤ R * R := by
    have : (1 : ℤ) ≤ R := by omega
    nlinarith
  have cx := hg.cells_x
  have cy := hg.cells_y
  obtain ⟨f1, f2, f3, f4, f5, f6⟩ := hf
  obtain ⟨g1, g2, g3, g4⟩ := hg.fits
  have ep0 : 0 ≤ rnd (1 / 10 ^ 13) := by
    have := hr.mono 0 (1 / 10 ^ 13) (by norm_num)
    rwa [hr.zero] at this
  have ep1 : rnd (1 / 10 ^ 13) ≤ 2 / 10 ^ 13 := Scaled.tol_range2 hr
  obtain ⟨m, e, l⟩ := C39_exact_cells_double rnd hr _ (wsOf mn mx) R C _ (grid_setUp hg) ep0 ep1
    (by simp only [wsW, wsOf]; omega) (by simp only [wsH, wsOf]; omega) ⟨g1, g4, g3, g2⟩ (boxR q) _ _ (boxR_rect q)
    ⟨f1, f6, f5, f2⟩ (by
      have a := hd.xfit
      have b := hd.yfit
      have c := hd.left
      have d := hd.top
      simp only [DiffsFit, wsOf, Client.lt, Client.rb, inI32] at *
      omega) hd.left (by simp only [Client.lt, Client.rb]; omega) hd.top (by simp only [Client.lt, Client.rb]; omega)
    (by
      unfold colOf
      rw [div_le_iff₀ (div_pos wq cq), ← mul_div_assoc, le_div_iff₀ cq]
      have := hd.cols
      have e : (((Client.rb q.1).x - (wsOf mn mx).leftTop.x : ℤ)) * (C : ℤ) ≤ 1073741824 * wsW (wsOf mn mx) := this
      exact_mod_cast e)
    (by
      unfold rowOf
      rw [div_le_iff₀ (div_pos hq rq), ← mul_div_assoc, le_div_iff₀ rq]
      have := hd.rows
      have e : (((wsOf mn mx).leftTop.y - (Client.rb q.1).y : ℤ)) * (R : ℤ) ≤ 1073741824 * wsH (wsOf mn mx) := this
      exact_mod_cast e)
    hcl _ hb rfl rfl
  have hl := l i j hi hj
  constructor
  · rintro ⟨m', e', h⟩
    rw [e] at e'; cases e'
    rcases hl.1 h with h | h
    · exact absurd h blank_dark
    · exact h
  · intro h
    exact ⟨m, e, hl.2 (Or.inr h)⟩

theorem cut_union {A B B1 B2 : Prop} (h1 : ¬ ((B1 ∨ B2) ∧ ¬ B)) (h2 : ¬ (B ∧ ¬ (B1 ∨ B2))) : (A ∧ B) ↔ (A ∧ B1) ∨ (A ∧ B2) := by tauto

/-- **C87** From files to bitmaps: an MSK file, and the same file with one rectangle cut by a vertical line into two (`u` is the width of the
left part).  The cut rectangle starts inside the window, its sides and the cut are clear of the lines of the grid, and the right part is at
least one cell wide.  Then both files give the same bitmap of that layer. -/
theorem C87_files (env env' : Msk.Env) (name name' : List Nat) (r r' : Msk.Reader) (cr cr' : Bool) (header header' : List UInt8)
    (pre post : List (Msk.Rect × Int)) (q : Msk.Rect) (n u : Int)
    (hp : PlainFile env name r cr header (pre ++ (q, n) :: post))
    (hp' : PlainFile env' name' r' cr' header' (pre ++ ({ q with w := u }, n) :: ({ q with x := q.x + u, w := q.w - u }, n) :: post))
    (addr addr' : Nat) (heap heap' : Elements)
    (hheap : ∀ e g, some g ∈ (heap e).geometries → g.coords.length < 2 ^ 64)
    (hheap' : ∀ e g, some g ∈ (heap' e).geometries → g.coords.length < 2 ^ 64) :
    ∃ w w', Msk.read env addr false ⟨r, {}, heap⟩ = .ok true w ∧ Msk.read env' addr' false ⟨r', {}, heap'⟩ = .ok true w' ∧
      ∀ (rnd : ℚ → ℚ) (_ : Rounding rnd) (mn mx : Coord) (R C : Nat) (_ : Grid mn mx R C) (al al' : Alloc)
        (_ : al R (bytesPerRow C) = none) (_ : al' R (bytesPerRow C) = none) (mem mem' : Memory) (a a' : Nat)
        (_ : mem.layouts a = w.data) (_ : mem.elements = w.heap)
        (_ : mem'.layouts a' = w'.data) (_ : mem'.elements = w'.heap) (k k' depth depth' : Nat)
        (_ : ∀ p ∈ pre ++ post, p.2 = n → Client.Meets mn mx p.1 → Client.StartsInside mn mx R C p.1 ∨ Client.Covers mn mx p.1)
        (_ : Client.StartsInside mn mx R C q) (_ : SidesClear (window mn mx) R C (Client.lt q) (Client.rb q))
        (_ : OffLines (colOf (window mn mx) C (q.x + u))) (_ : (mx.x - mn.x : ℤ) ≤ C * (q.w - u)),
        ∃ g g' m g1 g1', Generator.init (some a) [0] mn mx (Generator.new rnd) = .ok () g ∧
          Generator.init (some a') [0] mn mx (Generator.new rnd) = .ok () g' ∧
          Verif.Client.renderLayers rnd al (.ok k) mem depth R C [n] g = some (.ok [m] g1) ∧
          Verif.Client.renderLayers rnd al' (.ok k') mem' depth' R C [n] g' = some (.ok [m] g1') := by
  obtain ⟨w, e, hL, hg, _, hoth⟩ := read_plain hp addr heap
  obtain ⟨w', e', hL', hg', _, hoth'⟩ := read_plain hp' addr' heap'
  refine ⟨w, w', e, e', fun rnd hr mn mx R C hgr al al' hal hal' mem mem' a a' ha he ha' he' k k' depth depth' hd hin hcl hoff hwide => ?_⟩
  obtain ⟨c1, c2, c3, c4⟩ := hcl
  have wp := hgr.wpos
  have hpw := hgr.hpos
  have cp := hgr.cpos
  have mq : (q, n) ∈ pre ++ (q, n) :: post := by simp
  have ml : (({ q with w := u } : Msk.Rect), n) ∈ pre ++ ({ q with w := u }, n) :: ({ q with x := q.x + u, w := q.w - u }, n) :: post := by simp
  have mr : (({ q with x := q.x + u, w := q.w - u } : Msk.Rect), n) ∈
    pre ++ ({ q with w := u }, n) :: ({ q with x := q.x + u, w := q.w - u }, n) :: post := by simp
  have u0 : 0 ≤ u := (hp'.sizes _ ml).1
  have u1 : u ≤ q.w := by
    have := (hp'.sizes _ mr).1
    simp only at this
    omega
  have h0 : 0 ≤ q.h := (hp.sizes _ mq).2
  have i1 := hin.left
  have i2 := hin.top
  have i3 := hin.xfit
  have i4 := hin.yfit
  have i5 := hin.cols
  have i6 := hin.rows
  have inL : Client.StartsInside mn mx R C { q with w := u } := by
    refine ⟨i1, i2, ?_, i4, ?_, i6⟩
    · unfold inI32 at *; dsimp only; omega
    · dsimp only
      refine le_trans ?_ i5
      have : (0 : ℤ) ≤ C := by omega
      exact mul_le_mul_of_nonneg_right (by omega) this
  have inR : Client.StartsInside mn mx R C { q with x := q.x + u, w := q.w - u } := by
    refine ⟨by dsimp only; omega, i2, ?_, i4, ?_, i6⟩
    · unfold inI32 at *; dsimp only; omega
    · dsimp only
      rw [show q.x + u + (q.w - u) = q.x + q.w by ring]
      exact i5
  have rbR : Client.rb { q with x := q.x + u, w := q.w - u } = Client.rb q := by
    unfold Client.rb; dsimp only; congr 1; ring
  have cW := alone_cells hr hgr (q := (q, n)) (hp.sizes _ mq).1 h0 (hp.fits _ mq) hin ⟨c1, c2, c3, c4⟩
  have cL := alone_cells hr hgr (q := (({ q with w := u } : Msk.Rect), n)) u0 h0 (hp'.fits _ ml) inL ⟨c1, c2, Or.inr hoff, c4⟩
  have cR := alone_cells hr hgr (q := (({ q with x := q.x + u, w := q.w - u } : Msk.Rect), n)) (hp'.sizes _ mr).1 h0 (hp'.fits _ mr) inR
    ⟨Or.inr hoff, c2, by rw [rbR]; exact c3, by rw [rbR]; exact c4⟩
  simp only [rbR] at cR
  have hwW : 0 < wsW (window mn mx) := by simp only [wsW, window]; omega
  have pdx : 0 < (wsW (window mn mx) : ℚ) / C := by positivity
  have mX0 : colOf (window mn mx) C q.x ≤ colOf (window mn mx) C (q.x + u) := colOf_mono hwW cp (by omega)
  have mX1 : colOf (window mn mx) C (q.x + u) ≤ colOf (window mn mx) C (q.x + q.w) := colOf_mono hwW cp (by omega)
  have wide : colOf (window mn mx) C (q.x + u) + 1 ≤ colOf (window mn mx) C (q.x + q.w) := by
    unfold colOf
    rw [← div_self pdx.ne', ← add_div]
    apply div_le_div_of_nonneg_right _ pdx.le
    have : (wsW (window mn mx) : ℚ) / C ≤ ((q.w - u : ℤ) : ℚ) := by
      rw [div_le_iff₀ (by exact_mod_cast cp), mul_comm]
      exact_mod_cast hwide
    push_cast at *
    linarith
  have key : ∀ i j, i < R → j < C → (LightsAlone rnd mn mx R C (boxR (q, n)) i j ↔
      LightsAlone rnd mn mx R C (boxR (({ q with w := u } : Msk.Rect), n)) i j ∨
      LightsAlone rnd mn mx R C (boxR (({ q with x := q.x + u, w := q.w - u } : Msk.Rect), n)) i j) := by
    intro i j hi hj
    rw [cW i j hi hj, cL i j hi hj, cR i j hi hj]
    have a1 := axis_gains (t := 0) mX0 mX1 le_rfl hj
    have a2 := axis_loses (t := 0) mX0 mX1 le_rfl (by norm_num) hj
    have ng : ¬ Gains (colOf (window mn mx) C q.x) (colOf (window mn mx) C (q.x + u)) (colOf (window mn mx) C (q.x + q.w)) 0 C j := by
      rintro ⟨_, ⟨k1, k2⟩, ⟨k3, k4⟩, _⟩
      linarith
    have nl : ¬ Loses (colOf (window mn mx) C q.x) (colOf (window mn mx) C (q.x + u)) (colOf (window mn mx) C (q.x + q.w)) j := by
      rintro ⟨_, ⟨k1, k2⟩, ⟨k3, k4⟩⟩
      linarith
    rw [← a1] at ng
    rw [← a2] at nl
    exact cut_union ng nl
  -- a part that does not meet the window lights nothing
  have right_out : ¬ Client.Meets mn mx { q with x := q.x + u, w := q.w - u } → ∀ i j, i < R → j < C → Client.Meets mn mx q →
      ¬ LightsAlone rnd mn mx R C (boxR (({ q with x := q.x + u, w := q.w - u } : Msk.Rect), n)) i j := by
    intro hn i j hi hj hq hla
    obtain ⟨q1, q2, q3, q4⟩ := hq
    rw [cR i j hi hj] at hla
    have hb := hla.2.1
    have : mx.x < q.x + u := by
      by_contra hc
      exact hn ⟨by dsimp only; omega, by dsimp only; omega, q3, q4⟩
    have : (C : ℚ) ≤ colOf (window mn mx) C (q.x + u) := by
      unfold colOf
      have cq : (C : ℚ) ≠ 0 := by positivity
      rw [le_div_iff₀ pdx, mul_div_cancel₀ _ cq]
      exact_mod_cast (by simp only [wsW, window]; omega : wsW (window mn mx) ≤ q.x + u - (window mn mx).leftTop.x)
    have hj' : (j : ℚ) + 1 ≤ C := by exact_mod_cast hj
    have hb' : colOf (window mn mx) C (q.x + u) ≤ j + 1 / 2 + 0 := hb
    linarith
  have left_meets : Client.Meets mn mx { q with w := u } ↔ Client.Meets mn mx q := by
    unfold Client.Meets
    dsimp only
    constructor <;> intro h <;> omega
  have right_meets : Client.Meets mn mx { q with x := q.x + u, w := q.w - u } → Client.Meets mn mx q := by
    unfold Client.Meets
    dsimp only
    intro h; omega
  obtain ⟨g, hi⟩ := (C40_first_init rnd [] (Generator.new rnd) .start (by simp) a [0] (by simp) mn mx).1 ⟨by omega, by omega⟩
  obtain ⟨g', hi'⟩ := (C40_first_init rnd [] (Generator.new rnd) .start (by simp) a' [0] (by simp) mn mx).1 ⟨by omega, by omega⟩
  have hh := (History.start (rnd := rnd)).call (.initRet hi)
  have hh' := (History.start (rnd := rnd)).call (.initRet hi')
  have hrd := ready_after hr hh (by simp : (GenCall.init (some a) [0] mn mx, true) ∈ _) hgr hal n
  have hrd' := ready_after hr hh' (by simp : (GenCall.init (some a') [0] mn mx, true) ∈ _) hgr hal' n
  rw [← ha] at hL
  rw [← ha'] at hL'
  have hH := heap_fits hheap hg hoth
  have hH' := heap_fits hheap' hg' hoth'
  rw [← he] at hH
  rw [← he'] at hH'
  obtain ⟨txt, g1, ep, -, -⟩ := draw_layer hrd hgr hL hH hp.sizes hp.fits
    (fun p hpm hn hme => by
      simp only [List.mem_append, List.mem_cons] at hpm
      rcases hpm with hpm | rfl | hpm
      · exact hd p (List.mem_append_left _ hpm) hn hme
      · exact Or.inl hin
      · exact hd p (List.mem_append_right _ hpm) hn hme) k depth
  obtain ⟨txt', g1', ep', -, -⟩ := draw_layer hrd' hgr hL' hH' hp'.sizes hp'.fits
    (fun p hpm hn hme => by
      simp only [List.mem_append, List.mem_cons] at hpm
      rcases hpm with hpm | rfl | rfl | hpm
      · exact hd p (List.mem_append_left _ hpm) hn hme
      · exact Or.inl inL
      · exact Or.inl inR
      · exact hd p (List.mem_append_right _ hpm) hn hme) k' depth'
  obtain ⟨L, _, _, o, _⟩ := drawn_ones hrd (holds_fits hL hH) ep
  obtain ⟨L', _, _, o', _⟩ := drawn_ones hrd' (holds_fits hL' hH') ep'
  obtain ⟨-, -, -, -, -, l1⟩ := C41_bitmap rnd _ a mn mx [n] al R C hrd k mem depth (holds_fits hL hH) _ _ _ ep
  obtain ⟨-, -, -, -, -, l2⟩ := C41_bitmap rnd _ a' mn mx [n] al' R C hrd' k' mem' depth' (holds_fits hL' hH') _ _ _ ep'
  have hm : getMatrix g1 = getMatrix g1' := by
    refine drawn_eq o o' fun i j hi hj => ?_
    rw [l1, l2]
    constructor
    · rintro ⟨s, hs, hla⟩
      obtain ⟨p, hpm, hn, hme, rfl⟩ := (holds_selected hL _ hp.sizes mn mx n s).1 hs
      simp only [List.mem_append, List.mem_cons] at hpm
      rcases hpm with hpm | rfl | hpm
      · exact ⟨_, (holds_selected hL' _ hp'.sizes mn mx n _).2 ⟨p, by simp [hpm], hn, hme, rfl⟩, hla⟩
      · rcases (key i j hi hj).1 hla with h | h
        · exact ⟨_, (holds_selected hL' _ hp'.sizes mn mx n _).2 ⟨_, ml, rfl, left_meets.2 hme, rfl⟩, h⟩
        · refine ⟨_, (holds_selected hL' _ hp'.sizes mn mx n _).2 ⟨_, mr, rfl, ?_, rfl⟩, h⟩
          by_contra hc
          exact right_out hc i j hi hj hme h
      · exact ⟨_, (holds_selected hL' _ hp'.sizes mn mx n _).2 ⟨p, by simp [hpm], hn, hme, rfl⟩, hla⟩
    · rintro ⟨s, hs, hla⟩
      obtain ⟨p, hpm, hn, hme, rfl⟩ := (holds_selected hL' _ hp'.sizes mn mx n s).1 hs
      simp only [List.mem_append, List.mem_cons] at hpm
      rcases hpm with hpm | rfl | rfl | hpm
      · exact ⟨_, (holds_selected hL _ hp.sizes mn mx n _).2 ⟨p, by simp [hpm], hn, hme, rfl⟩, hla⟩
      · exact ⟨_, (holds_selected hL _ hp.sizes mn mx n _).2 ⟨_, mq, rfl, left_meets.1 hme, rfl⟩, (key i j hi hj).2 (Or.inl hla)⟩
      · exact ⟨_, (holds_selected hL _ hp.sizes mn mx n _).2 ⟨_, mq, rfl, right_meets hme, rfl⟩, (key i j hi hj).2 (Or.inr hla)⟩
      · exact ⟨_, (holds_selected hL _ hp.sizes mn mx n _).2 ⟨p, by simp [hpm], hn, hme, rfl⟩, hla⟩
  refine ⟨g, g', getMatrix g1, g1, g1', hi, hi', ?_, ?_⟩
  · simp only [Verif.Client.renderLayers, ep]
  · simp only [Verif.Client.renderLayers, ep', hm]

/-! ### the hypotheses can be met -/

/-- a rectangle `23..57 × 63..81`, and the same cut at 37 -/
def exWhole : List (Msk.Rect × Int) := [(⟨23, 63, 34, 18, "ME"⟩, 23)]
def exParts : List (Msk.Rect × Int) := [(⟨23, 63, 14, 18, "ME"⟩, 23), (⟨37, 63, 20, 18, "ME"⟩, 23)]

theorem exWhole_plain : PlainFile (exEnv (Msk.fileText [10] (Msk.bytes "VERSION 1") (exWhole.map Prod.fst))) exName { fileName := exName } false
    (Msk.bytes "VERSION 1") exWhole where
  reader := by
    have e : Msk.narrow exName = lit "d/x.msk" := by decide +kernel
    refine (C50_get_reader _ _ _).mpr ⟨⟨ex_name, Msk.fileText [10] (Msk.bytes "VERSION 1") (exWhole.map Prod.fst), by simp [exEnv, e], ?_⟩, rfl⟩
    decide +kernel
  content := by
    have e : Msk.narrow exName = lit "d/x.msk" := by decide +kernel
    simp [exEnv, e]
  names := ⟨⟨_, rfl⟩, _, rfl⟩
  line := by decide +kernel
  noBB := by decide +kernel
  noREC := by decide +kernel
  noTITLE := by decide +kernel
  layers := by
    simp only [exWhole, List.mem_cons, List.not_mem_nil, or_false, forall_eq]
    exact .me
  fits := by
    simp only [exWhole, List.mem_cons, List.not_mem_nil, or_false, forall_eq]
    unfold RectFits inI32; decide
  sizes := by
    simp only [exWhole, List.mem_cons, List.not_mem_nil, or_false, forall_eq]
    decide
  some_rect := by simp [exWhole]

theorem exParts_plain : PlainFile (exEnv (Msk.fileText [10] (Msk.bytes "VERSION 1") (exParts.map Prod.fst))) exName { fileName := exName } false
    (Msk.bytes "VERSION 1") exParts where
  reader := by
    have e : Msk.narrow exName = lit "d/x.msk" := by decide +kernel
    refine (C50_get_reader _ _ _).mpr ⟨⟨ex_name, Msk.fileText [10] (Msk.bytes "VERSION 1") (exParts.map Prod.fst), by simp [exEnv, e], ?_⟩, rfl⟩
    decide +kernel
  content := by
    have e : Msk.narrow exName = lit "d/x.msk" := by decide +kernel
    simp [exEnv, e]
  names := ⟨⟨_, rfl⟩, _, rfl⟩
  line := by decide +kernel
  noBB := by decide +kernel
  noREC := by decide +kernel
  noTITLE := by decide +kernel
  layers := by
    simp only [exParts, List.mem_cons, List.not_mem_nil, or_false, forall_eq_or_imp, forall_eq]
    exact ⟨.me, .me⟩
  fits := by
    simp only [exParts, List.mem_cons, List.not_mem_nil, or_false, forall_eq_or_imp, forall_eq]
    unfold RectFits inI32; decide
  sizes := by
    simp only [exParts, List.mem_cons, List.not_mem_nil, or_false, forall_eq_or_imp, forall_eq]
    decide
  some_rect := by simp [exParts]

example : ∃ w w', Msk.read (exEnv (Msk.fileText [10] (Msk.bytes "VERSION 1") (exWhole.map Prod.fst))) 7 false
      ⟨{ fileName := exName }, {}, fun _ => {}⟩ = .ok true w ∧
    Msk.read (exEnv (Msk.fileText [10] (Msk.bytes "VERSION 1") (exParts.map Prod.fst))) 7 false
      ⟨{ fileName := exName }, {}, fun _ => {}⟩ = .ok true w' ∧
    ∃ g g' m g1 g1', Verif.Client.renderLayers rne Alloc.ok (.ok 0) ⟨fun _ => w.data, w.heap⟩ 0 10 10 [23] g = some (.ok [m] g1) ∧
      Verif.Client.renderLayers rne Alloc.ok (.ok 0) ⟨fun _ => w'.data, w'.heap⟩ 0 10 10 [23] g' = some (.ok [m] g1') := by
  obtain ⟨w, w', e, e', h⟩ := C87_files _ _ _ _ _ _ _ _ _ _ [] [] ⟨23, 63, 34, 18, "ME"⟩ 23 14 exWhole_plain exParts_plain 7 7
    (fun _ => {}) (fun _ => {}) (by simp) (by simp)
  obtain ⟨g, g', m, g1, g1', -, -, r1, r2⟩ := h rne rne_rounding ⟨0, 0⟩ ⟨100, 100⟩ 10 10
    ⟨by unfold inI32; decide, by unfold inI32; decide, by unfold inI32; decide, by decide, by decide, by decide, by decide, by decide, by decide⟩
    Alloc.ok Alloc.ok rfl rfl ⟨fun _ => w.data, w.heap⟩ ⟨fun _ => w'.data, w'.heap⟩ 0 0 rfl rfl rfl rfl 0 0 0 0 (by simp)
    ⟨by decide, by decide, by unfold inI32; decide, by unfold inI32; decide, by decide, by decide⟩
    (by
      refine ⟨Or.inr (off_mk 4 ?_ ?_), Or.inr (off_mk 3 ?_ ?_), Or.inr (off_mk 11 ?_ ?_), Or.inr (off_mk 7 ?_ ?_)⟩ <;>
        simp only [colOf, rowOf, wsW, wsH, window, Client.lt, Client.rb] <;> norm_num)
    (by refine off_mk 7 ?_ ?_ <;> simp only [colOf, wsW, window] <;> norm_num) (by decide)
  exact ⟨w, w', e, e', g, g', m, g1, g1', r1, r2⟩

end Verif.Props
