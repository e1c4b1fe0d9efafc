import Verif.Props.CutFile

/-! C87 at the level of files: cutting a rectangle of an MSK file in two by a horizontal line. -/

namespace Verif.Props
open Verif BitMatrix Zond Spec Ieee Generator Client

theorem cut_union_rows {A B B1 B2 : Prop} (h1 : ¬ ((B1 ∨ B2) ∧ ¬ B)) (h2 : ¬ (B ∧ ¬ (B1 ∨ B2))) : (B ∧ A) ↔ (B1 ∧ A) ∨ (B2 ∧ A) := by tauto

/-- **C87** From files to bitmaps: an MSK file, and the same file with one rectangle cut by a horizontal line into two (`v` is the height of
the lower part).  The cut rectangle starts inside the window, its sides and the cut are clear of the lines of the grid, and the lower part is
at least one cell high.  Then both files give the same bitmap of that layer. -/
theorem C87_files_rows (env env' : Msk.Env) (name name' : List Nat) (r r' : Msk.Reader) (cr cr' : Bool) (header header' : List UInt8)
    (pre post : List (Msk.Rect × Int)) (q : Msk.Rect) (n v : Int)
    (hp : PlainFile env name r cr header (pre ++ (q, n) :: post))
    (hp' : PlainFile env' name' r' cr' header' (pre ++ ({ q with y := q.y + v, h := q.h - v }, n) :: ({ q with h := v }, n) :: post))
    (addr addr' : Nat) (heap heap' : Elements)
    (hheap : ∀ e g, some g ∈ (heap e).geometries → g.coords.length < 2 ^ 64)
    (hheap' : ∀ e g, some g ∈ (heap' e).geometries → g.coords.length < 2 ^ 64) :
    ∃ w w', Msk.read env addr false ⟨r, {}, heap⟩ = .ok true w ∧ Msk.read env' addr' false ⟨r', {}, heap'⟩ = .ok true w' ∧
      ∀ (rnd : ℚ → ℚ) (_ : Rounding rnd) (mn mx : Coord) (R C : Nat) (_ : Grid mn mx R C) (al al' : Alloc)
        (_ : al R (bytesPerRow C) = none) (_ : al' R (bytesPerRow C) = none) (mem mem' : Memory) (a a' : Nat)
        (_ : mem.layouts a = w.data) (_ : mem.elements = w.heap)
        (_ : mem'.layouts a' = w'.data) (_ : mem'.elements = w'.heap) (k k' depth depth' : Nat)
        (_ : ∀ p ∈ pre ++ post, p.2 = n → Client.Meets mn mx p.1 → Client.StartsInside mn mx R C p.1 ∨ Client.Covers mn mx p.1)
        (_ : Client.StartsInside mn mx R C q) (_ : SidesClear (window mn mx) R C (Client.lt q) (Client.rb q))
        (_ : OffLines (rowOf (window mn mx) R (q.y + v))) (_ : (mx.y - mn.y : ℤ) ≤ R * v),
        ∃ g g' m g1 g1', Generator.init (some a) [0] mn mx (Generator.new rnd) = .ok () g ∧
          Generator.init (some a') [0] mn mx (Generator.new rnd) = .ok () g' ∧
          Verif.Client.renderLayers rnd al (.ok k) mem depth R C [n] g = some (.ok [m] g1) ∧
          Verif.Client.renderLayers rnd al' (.ok k') mem' depth' R C [n] g' = some (.ok [m] g1') := by
  obtain ⟨w, e, hL, hg, _, hoth⟩ := read_plain hp addr heap
  obtain ⟨w', e', hL', hg', _, hoth'⟩ := read_plain hp' addr' heap'
  refine ⟨w, w', e, e', fun rnd hr mn mx R C hgr al al' hal hal' mem mem' a a' ha he ha' he' k k' depth depth' hd hin hcl hoff hwide => ?_⟩
  obtain ⟨c1, c2, c3, c4⟩ := hcl
  have wp := hgr.wpos
  have hpw := hgr.hpos
  have rp := hgr.rpos
  have mq : (q, n) ∈ pre ++ (q, n) :: post := by simp
  have ml : (({ q with y := q.y + v, h := q.h - v } : Msk.Rect), n) ∈ pre ++ ({ q with y := q.y + v, h := q.h - v }, n) :: ({ q with h := v }, n) :: post := by simp
  have mr : (({ q with h := v } : Msk.Rect), n) ∈
    pre ++ ({ q with y := q.y + v, h := q.h - v }, n) :: ({ q with h := v }, n) :: post := by simp
  have v0 : 0 ≤ v := (hp'.sizes _ mr).2
  have v1 : v ≤ q.h := by
    have := (hp'.sizes _ ml).2
    simp only at this
    omega
  have w0 : 0 ≤ q.w := (hp.sizes _ mq).1
  have i1 := hin.left
  have i2 := hin.top
  have i3 := hin.xfit
  have i4 := hin.yfit
  have i5 := hin.cols
  have i6 := hin.rows
  have inL : Client.StartsInside mn mx R C { q with y := q.y + v, h := q.h - v } := by
    refine ⟨i1, ?_, i3, ?_, i5, ?_⟩
    · dsimp only; omega
    · unfold inI32 at *; dsimp only; omega
    · dsimp only
      refine le_trans ?_ i6
      have : (0 : ℤ) ≤ R := by omega
      exact mul_le_mul_of_nonneg_right (by omega) this
  have inR : Client.StartsInside mn mx R C { q with h := v } := by
    refine ⟨i1, ?_, i3, i4, i5, i6⟩
    dsimp only; omega
  have ltL : Client.lt { q with y := q.y + v, h := q.h - v } = Client.lt q := by
    unfold Client.lt; dsimp only; congr 1; ring
  have cW := alone_cells hr hgr (q := (q, n)) w0 (hp.sizes _ mq).2 (hp.fits _ mq) hin ⟨c1, c2, c3, c4⟩
  have cL := alone_cells hr hgr (q := (({ q with y := q.y + v, h := q.h - v } : Msk.Rect), n)) w0 (hp'.sizes _ ml).2 (hp'.fits _ ml) inL
    ⟨by rw [ltL]; exact c1, by rw [ltL]; exact c2, c3, Or.inr hoff⟩
  have cR := alone_cells hr hgr (q := (({ q with h := v } : Msk.Rect), n)) w0 v0 (hp'.fits _ mr) inR ⟨c1, Or.inr hoff, c3, c4⟩
  simp only [ltL] at cL
  have hwH : 0 < wsH (window mn mx) := by simp only [wsH, window]; omega
  have pdy : 0 < (wsH (window mn mx) : ℚ) / R := by positivity
  have mX0 : rowOf (window mn mx) R (q.y + q.h) ≤ rowOf (window mn mx) R (q.y + v) := rowOf_mono hwH rp (by omega)
  have mX1 : rowOf (window mn mx) R (q.y + v) ≤ rowOf (window mn mx) R q.y := rowOf_mono hwH rp (by omega)
  have wide : rowOf (window mn mx) R (q.y + v) + 1 ≤ rowOf (window mn mx) R q.y := by
    unfold rowOf
    rw [← div_self pdy.ne', ← add_div]
    apply div_le_div_of_nonneg_right _ pdy.le
    have : (wsH (window mn mx) : ℚ) / R ≤ ((v : ℤ) : ℚ) := by
      rw [div_le_iff₀ (by exact_mod_cast rp), mul_comm]
      exact_mod_cast hwide
    push_cast at *
    linarith
  have key : ∀ i j, i < R → j < C → (LightsAlone rnd mn mx R C (boxR (q, n)) i j ↔
      LightsAlone rnd mn mx R C (boxR (({ q with y := q.y + v, h := q.h - v } : Msk.Rect), n)) i j ∨
      LightsAlone rnd mn mx R C (boxR (({ q with h := v } : Msk.Rect), n)) i j) := by
    intro i j hi hj
    rw [cW i j hi hj, cL i j hi hj, cR i j hi hj]
    have a1 := axis_gains (t := 0) mX0 mX1 le_rfl hi
    have a2 := axis_loses (t := 0) mX0 mX1 le_rfl (by norm_num) hi
    have ng : ¬ Gains (rowOf (window mn mx) R (q.y + q.h)) (rowOf (window mn mx) R (q.y + v)) (rowOf (window mn mx) R q.y) 0 R i := by
      rintro ⟨_, ⟨k1, k2⟩, ⟨k3, k4⟩, _⟩
      linarith
    have nl : ¬ Loses (rowOf (window mn mx) R (q.y + q.h)) (rowOf (window mn mx) R (q.y + v)) (rowOf (window mn mx) R q.y) i := by
      rintro ⟨_, ⟨k1, k2⟩, ⟨k3, k4⟩⟩
      linarith
    rw [← a1] at ng
    rw [← a2] at nl
    exact cut_union_rows ng nl
  -- a part that does not meet the window lights nothing
  have right_out : ¬ Client.Meets mn mx { q with h := v } → ∀ i j, i < R → j < C → Client.Meets mn mx q →
      ¬ LightsAlone rnd mn mx R C (boxR (({ q with h := v } : Msk.Rect), n)) i j := by
    intro hn i j hi hj hq hla
    obtain ⟨q1, q2, q3, q4⟩ := hq
    rw [cR i j hi hj] at hla
    have hb := hla.1.1
    have : q.y + v < mn.y := by
      by_contra hc
      exact hn ⟨q1, q2, by dsimp only; omega, by dsimp only; omega⟩
    have : (R : ℚ) ≤ rowOf (window mn mx) R (q.y + v) := by
      unfold rowOf
      have rq : (R : ℚ) ≠ 0 := by positivity
      rw [le_div_iff₀ pdy, mul_div_cancel₀ _ rq]
      exact_mod_cast (by simp only [wsH, window]; omega : wsH (window mn mx) ≤ (window mn mx).leftTop.y - (q.y + v))
    have hi' : (i : ℚ) + 1 ≤ R := by exact_mod_cast hi
    have hb' : rowOf (window mn mx) R (q.y + v) ≤ i + 1 / 2 + 0 := hb
    linarith
  have left_meets : Client.Meets mn mx { q with y := q.y + v, h := q.h - v } ↔ Client.Meets mn mx q := by
    unfold Client.Meets
    dsimp only
    constructor <;> intro h <;> omega
  have right_meets : Client.Meets mn mx { q with h := v } → Client.Meets mn mx q := by
    unfold Client.Meets
    dsimp only
    intro h; omega
  obtain ⟨g, hi⟩ := (C40_first_init rnd [] (Generator.new rnd) .start (by simp) a [0] (by simp) mn mx).1 ⟨by omega, by omega⟩
  obtain ⟨g', hi'⟩ := (C40_first_init rnd [] (Generator.new rnd) .start (by simp) a' [0] (by simp) mn mx).1 ⟨by omega, by omega⟩
  have hh := (History.start (rnd := rnd)).call (.initRet hi)
  have hh' := (History.start (rnd := rnd)).call (.initRet hi')
  have hrd := ready_after hr hh (by simp : (GenCall.init (some a) [0] mn mx, true) ∈ _) hgr hal n
  have hrd' := ready_after hr hh' (by simp : (GenCall.init (some a') [0] mn mx, true) ∈ _) hgr hal' n
  rw [← ha] at hL
  rw [← ha'] at hL'
  have hH := heap_fits hheap hg hoth
  have hH' := heap_fits hheap' hg' hoth'
  rw [← he] at hH
  rw [← he'] at hH'
  obtain ⟨txt, g1, ep, -, -⟩ := draw_layer hrd hgr hL hH hp.sizes hp.fits
    (fun p hpm hn hme => by
      simp only [List.mem_append, List.mem_cons] at hpm
      rcases hpm with hpm | rfl | hpm
      · exact hd p (List.mem_append_left _ hpm) hn hme
      · exact Or.inl hin
      · exact hd p (List.mem_append_right _ hpm) hn hme) k depth
  obtain ⟨txt', g1', ep', -, -⟩ := draw_layer hrd' hgr hL' hH' hp'.sizes hp'.fits
    (fun p hpm hn hme => by
      simp only [List.mem_append, List.mem_cons] at hpm
      rcases hpm with hpm | rfl | rfl | hpm
      · exact hd p (List.mem_append_left _ hpm) hn hme
      · exact Or.inl inL
      · exact Or.inl inR
      · exact hd p (List.mem_append_right _ hpm) hn hme) k' depth'
  obtain ⟨L, _, _, o, _⟩ := drawn_ones hrd (holds_fits hL hH) ep
  obtain ⟨L', _, _, o', _⟩ := drawn_ones hrd' (holds_fits hL' hH') ep'
  obtain ⟨-, -, -, -, -, l1⟩ := C41_bitmap rnd _ a mn mx [n] al R C hrd k mem depth (holds_fits hL hH) _ _ _ ep
  obtain ⟨-, -, -, -, -, l2⟩ := C41_bitmap rnd _ a' mn mx [n] al' R C hrd' k' mem' depth' (holds_fits hL' hH') _ _ _ ep'
  have hm : getMatrix g1 = getMatrix g1' := by
    refine drawn_eq o o' fun i j hi hj => ?_
    rw [l1, l2]
    constructor
    · rintro ⟨s, hs, hla⟩
      obtain ⟨p, hpm, hn, hme, rfl⟩ := (holds_selected hL _ hp.sizes mn mx n s).1 hs
      simp only [List.mem_append, List.mem_cons] at hpm
      rcases hpm with hpm | rfl | hpm
      · exact ⟨_, (holds_selected hL' _ hp'.sizes mn mx n _).2 ⟨p, by simp [hpm], hn, hme, rfl⟩, hla⟩
      · rcases (key i j hi hj).1 hla with h | h
        · exact ⟨_, (holds_selected hL' _ hp'.sizes mn mx n _).2 ⟨_, ml, rfl, left_meets.2 hme, rfl⟩, h⟩
        · refine ⟨_, (holds_selected hL' _ hp'.sizes mn mx n _).2 ⟨_, mr, rfl, ?_, rfl⟩, h⟩
          by_contra hc
          exact right_out hc i j hi hj hme h
      · exact ⟨_, (holds_selected hL' _ hp'.sizes mn mx n _).2 ⟨p, by simp [hpm], hn, hme, rfl⟩, hla⟩
    · rintro ⟨s, hs, hla⟩
      obtain ⟨p, hpm, hn, hme, rfl⟩ := (holds_selected hL' _ hp'.sizes mn mx n s).1 hs
      simp only [List.mem_append, List.mem_cons] at hpm
      rcases hpm with hpm | rfl | rfl | hpm
      · exact ⟨_, (holds_selected hL _ hp.sizes mn mx n _).2 ⟨p, by simp [hpm], hn, hme, rfl⟩, hla⟩
      · exact ⟨_, (holds_selected hL _ hp.sizes mn mx n _).2 ⟨_, mq, rfl, left_meets.1 hme, rfl⟩, (key i j hi hj).2 (Or.inl hla)⟩
      · exact ⟨_, (holds_selected hL _ hp.sizes mn mx n _).2 ⟨_, mq, rfl, right_meets hme, rfl⟩, (key i j hi hj).2 (Or.inr hla)⟩
      · exact ⟨_, (holds_selected hL _ hp.sizes mn mx n _).2 ⟨p, by simp [hpm], hn, hme, rfl⟩, hla⟩
  refine ⟨g, g', getMatrix g1, g1, g1', hi, hi', ?_, ?_⟩
  · simp only [Verif.Client.renderLayers, ep]
  · simp only [Verif.Client.renderLayers, ep', hm]

/-! ### the hypotheses can be met -/

/-- the rectangle `23..57 × 63..81`, cut at the height 77 -/
def exHalves : List (Msk.Rect × Int) := [(⟨23, 77, 34, 4, "ME"⟩, 23), (⟨23, 63, 34, 14, "ME"⟩, 23)]

theorem exHalves_plain : PlainFile (exEnv (Msk.fileText [10] (Msk.bytes "VERSION 1") (exHalves.map Prod.fst))) exName { fileName := exName } false
    (Msk.bytes "VERSION 1") exHalves where
  reader := by
    have e : Msk.narrow exName = lit "d/x.msk" := by decide +kernel
    refine (C50_get_reader _ _ _).mpr ⟨⟨ex_name, Msk.fileText [10] (Msk.bytes "VERSION 1") (exHalves.map Prod.fst), by simp [exEnv, e], ?_⟩, rfl⟩
    decide +kernel
  content := by
    have e : Msk.narrow exName = lit "d/x.msk" := by decide +kernel
    simp [exEnv, e]
  names := ⟨⟨_, rfl⟩, _, rfl⟩
  line := by decide +kernel
  noBB := by decide +kernel
  noREC := by decide +kernel
  noTITLE := by decide +kernel
  layers := by
    simp only [exHalves, List.mem_cons, List.not_mem_nil, or_false, forall_eq_or_imp, forall_eq]
    exact ⟨.me, .me⟩
  fits := by
    simp only [exHalves, List.mem_cons, List.not_mem_nil, or_false, forall_eq_or_imp, forall_eq]
    unfold RectFits inI32; decide
  sizes := by
    simp only [exHalves, List.mem_cons, List.not_mem_nil, or_false, forall_eq_or_imp, forall_eq]
    decide
  some_rect := by simp [exHalves]

example : ∃ w w', Msk.read (exEnv (Msk.fileText [10] (Msk.bytes "VERSION 1") (exWhole.map Prod.fst))) 7 false
      ⟨{ fileName := exName }, {}, fun _ => {}⟩ = .ok true w ∧
    Msk.read (exEnv (Msk.fileText [10] (Msk.bytes "VERSION 1") (exHalves.map Prod.fst))) 7 false
      ⟨{ fileName := exName }, {}, fun _ => {}⟩ = .ok true w' ∧
    ∃ g g' m g1 g1', Verif.Client.renderLayers rne Alloc.ok (.ok 0) ⟨fun _ => w.data, w.heap⟩ 0 10 10 [23] g = some (.ok [m] g1) ∧
      Verif.Client.renderLayers rne Alloc.ok (.ok 0) ⟨fun _ => w'.data, w'.heap⟩ 0 10 10 [23] g' = some (.ok [m] g1') := by
  obtain ⟨w, w', e, e', h⟩ := C87_files_rows _ _ _ _ _ _ _ _ _ _ [] [] ⟨23, 63, 34, 18, "ME"⟩ 23 14 exWhole_plain exHalves_plain 7 7
    (fun _ => {}) (fun _ => {}) (by simp) (by simp)
  obtain ⟨g, g', m, g1, g1', -, -, r1, r2⟩ := h rne rne_rounding ⟨0, 0⟩ ⟨100, 100⟩ 10 10
    ⟨by unfold inI32; decide, by unfold inI32; decide, by unfold inI32; decide, by decide, by decide, by decide, by decide, by decide, by decide⟩
    Alloc.ok Alloc.ok rfl rfl ⟨fun _ => w.data, w.heap⟩ ⟨fun _ => w'.data, w'.heap⟩ 0 0 rfl rfl rfl rfl 0 0 0 0 (by simp)
    ⟨by decide, by decide, by unfold inI32; decide, by unfold inI32; decide, by decide, by decide⟩
    (by
      refine ⟨Or.inr (off_mk 4 ?_ ?_), Or.inr (off_mk 3 ?_ ?_), Or.inr (off_mk 11 ?_ ?_), Or.inr (off_mk 7 ?_ ?_)⟩ <;>
        simp only [colOf, rowOf, wsW, wsH, window, Client.lt, Client.rb] <;> norm_num)
    (by refine off_mk 4 ?_ ?_ <;> simp only [rowOf, wsH, window] <;> norm_num) (by decide)
  exact ⟨w, w', e, e', g, g', m, g1, g1', r1, r2⟩

end Verif.Props
