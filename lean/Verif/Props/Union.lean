import Verif.Props.CutFile

/-! C89: the bitmap of a union is the union of the bitmaps; adding shapes only adds cells. -/

namespace Verif.Props
open Verif BitMatrix Zond Spec Ieee Generator Client

/-- **C89** Three generators, initialised for the same window, process three layouts at the same size (any memories, histories and lists of
requested layers).  If the geometries to draw of the third are those of the first and those of the second, and the first two calls return,
then the third does not throw, and if it returns, a cell of its bitmap is on exactly if it is on in one of the two others. -/
theorem C89_union (rnd : ℚ → ℚ) (mn mx : Coord) (R C : Nat)
    (g : Generator) (a : Nat) (req : List Int) (al : Alloc) (hr : Ready rnd g a mn mx req al R C) (k : Nat) (mem : Memory) (depth : Nat)
    (hfit : LayoutFits (mem.layouts a) mem.elements)
    (g2 : Generator) (a2 : Nat) (req2 : List Int) (al2 : Alloc) (hr2 : Ready rnd g2 a2 mn mx req2 al2 R C) (k2 : Nat) (mem2 : Memory)
    (depth2 : Nat) (hfit2 : LayoutFits (mem2.layouts a2) mem2.elements)
    (g3 : Generator) (a3 : Nat) (req3 : List Int) (al3 : Alloc) (hr3 : Ready rnd g3 a3 mn mx req3 al3 R C) (k3 : Nat) (mem3 : Memory)
    (depth3 : Nat) (hfit3 : LayoutFits (mem3.layouts a3) mem3.elements)
    (hsel : ∀ s, Selected (mem3.layouts a3) mem3.elements (wsOf mn mx) req3 s ↔
      Selected (mem.layouts a) mem.elements (wsOf mn mx) req s ∨ Selected (mem2.layouts a2) mem2.elements (wsOf mn mx) req2 s)
    (b b2 : Bool) (txt txt2 : List UInt8) (g' g2' : Generator)
    (hp : Generator.process rnd al (.ok k) mem depth R C g = some (.ok (b, txt) g'))
    (hp2 : Generator.process rnd al2 (.ok k2) mem2 depth2 R C g2 = some (.ok (b2, txt2) g2')) :
    (∀ e s, Generator.process rnd al3 (.ok k3) mem3 depth3 R C g3 ≠ some (.throw e s)) ∧
    ∀ b3 txt3 g3', Generator.process rnd al3 (.ok k3) mem3 depth3 R C g3 = some (.ok (b3, txt3) g3') →
      ∀ i j, Lit (getMatrix g3') i j ↔ Lit (getMatrix g') i j ∨ Lit (getMatrix g2') i j := by
  obtain ⟨L, hL, pa, -, -⟩ := drawn_ones hr hfit hp
  obtain ⟨L2, hL2, pa2, -, -⟩ := drawn_ones hr2 hfit2 hp2
  constructor
  · intro e s h
    obtain ⟨-, s, hs, ht⟩ := (C41_returns_or_throws rnd g3 a3 mn mx req3 al3 R C hr3 k3 mem3 depth3 hfit3).1 e s h
    have : ∃ P, Paints R C (zondGeometry rnd (genRaster rnd mn mx R C) (some s)) P := by
      rcases (hsel s).1 hs with h | h
      · exact pa s ((hL s).2 h)
      · exact pa2 s ((hL2 s).2 h)
    obtain ⟨P, hP⟩ := this
    obtain ⟨m, e, _⟩ := hP _ (blank_shape R C)
    rw [ht] at e; cases e
  · intro b3 txt3 g3' h3 i j
    obtain ⟨-, -, -, -, -, l1⟩ := C41_bitmap rnd g a mn mx req al R C hr k mem depth hfit b txt g' hp
    obtain ⟨-, -, -, -, -, l2⟩ := C41_bitmap rnd g2 a2 mn mx req2 al2 R C hr2 k2 mem2 depth2 hfit2 b2 txt2 g2' hp2
    obtain ⟨-, -, -, -, -, l3⟩ := C41_bitmap rnd g3 a3 mn mx req3 al3 R C hr3 k3 mem3 depth3 hfit3 b3 txt3 g3' h3
    rw [l1, l2, l3]
    constructor
    · rintro ⟨s, hs, h⟩
      rcases (hsel s).1 hs with hs | hs
      · exact Or.inl ⟨s, hs, h⟩
      · exact Or.inr ⟨s, hs, h⟩
    · rintro (⟨s, hs, h⟩ | ⟨s, hs, h⟩)
      · exact ⟨s, (hsel s).2 (Or.inl hs), h⟩
      · exact ⟨s, (hsel s).2 (Or.inr hs), h⟩

/-- **C89** If the geometries to draw of one layout are among those of another and the call for the larger one returns, then the call for the
smaller one does not throw, and if it returns, no cell is on that is not on in the other bitmap. -/
theorem C89_superset (rnd : ℚ → ℚ) (mn mx : Coord) (R C : Nat)
    (g : Generator) (a : Nat) (req : List Int) (al : Alloc) (hr : Ready rnd g a mn mx req al R C) (k : Nat) (mem : Memory) (depth : Nat)
    (hfit : LayoutFits (mem.layouts a) mem.elements)
    (g2 : Generator) (a2 : Nat) (req2 : List Int) (al2 : Alloc) (hr2 : Ready rnd g2 a2 mn mx req2 al2 R C) (k2 : Nat) (mem2 : Memory)
    (depth2 : Nat) (hfit2 : LayoutFits (mem2.layouts a2) mem2.elements)
    (hsel : ∀ s, Selected (mem.layouts a) mem.elements (wsOf mn mx) req s → Selected (mem2.layouts a2) mem2.elements (wsOf mn mx) req2 s)
    (b2 : Bool) (txt2 : List UInt8) (g2' : Generator)
    (hp2 : Generator.process rnd al2 (.ok k2) mem2 depth2 R C g2 = some (.ok (b2, txt2) g2')) :
    (∀ e s, Generator.process rnd al (.ok k) mem depth R C g ≠ some (.throw e s)) ∧
    ∀ b txt g', Generator.process rnd al (.ok k) mem depth R C g = some (.ok (b, txt) g') →
      ∀ i j, Lit (getMatrix g') i j → Lit (getMatrix g2') i j := by
  obtain ⟨L2, hL2, pa2, -, -⟩ := drawn_ones hr2 hfit2 hp2
  constructor
  · intro e s h
    obtain ⟨-, s, hs, ht⟩ := (C41_returns_or_throws rnd g a mn mx req al R C hr k mem depth hfit).1 e s h
    obtain ⟨P, hP⟩ := pa2 s ((hL2 s).2 (hsel s hs))
    obtain ⟨m, e, _⟩ := hP _ (blank_shape R C)
    rw [ht] at e; cases e
  · intro b txt g' hp i j
    obtain ⟨-, -, -, -, -, l1⟩ := C41_bitmap rnd g a mn mx req al R C hr k mem depth hfit b txt g' hp
    obtain ⟨-, -, -, -, -, l2⟩ := C41_bitmap rnd g2 a2 mn mx req2 al2 R C hr2 k2 mem2 depth2 hfit2 b2 txt2 g2' hp2
    rw [l1, l2]
    rintro ⟨s, hs, h⟩
    exact ⟨s, hsel s hs, h⟩

theorem countOf_union {m m' : BitMatrix} (hm : Built m) (hm' : Built m') (h1 : m.isize = m'.isize) (h2 : m.jsize = m'.jsize)
    (hsub : ∀ i j, Lit m i j → Lit m' i j) : countOf m true + diffCount m m' = countOf m' true := by
  unfold countOf diffCount
  rw [← h1, ← h2, ← Finset.card_union_of_disjoint]
  · congr 1
    ext ⟨i, j⟩
    simp only [Finset.mem_union, Finset.mem_filter]
    have hs := hsub i j
    unfold Lit at hs
    constructor
    · rintro (⟨hc, h⟩ | ⟨hc, h⟩)
      · exact ⟨hc, hs h⟩
      · refine ⟨hc, ?_⟩
        simp only [cells, Finset.mem_product, Finset.mem_range] at hc
        have e1 := get_eq hm.inv.1 hc.1 hc.2
        have e2 := get_eq hm'.inv.1 (h1 ▸ hc.1) (h2 ▸ hc.2)
        rw [e1, e2] at h hs
        rw [e2]
        cases k1 : m.cell i j <;> cases k2 : m'.cell i j <;> simp_all
    · rintro ⟨hc, h⟩
      by_cases hl : m.get i j = .ok true
      · exact Or.inl ⟨hc, hl⟩
      · exact Or.inr ⟨hc, by rw [h]; exact hl⟩
  · rw [Finset.disjoint_left]
    rintro ⟨i, j⟩ h1 h2
    simp only [Finset.mem_filter] at h1 h2
    have := hsub i j h1.2
    unfold Lit at this
    exact h2.2 (h1.2.trans this.symm)

/-- **C89** A bitmap and one that has more cells on: in exact arithmetic `Compare` is one minus the increase of `OneRatio`, and XOR shows
exactly the added cells. -/
theorem C89_added (m m' : BitMatrix) (hm : Built m) (hm' : Built m') (h1 : m.isize = m'.isize) (h2 : m.jsize = m'.jsize)
    (h3 : 0 < m.isize) (h4 : 0 < m.jsize) (hs : m.isize * m.jsize ≤ 2 ^ 53) (hsub : ∀ i j, Lit m i j → Lit m' i j) :
    ∃ x o o', BitMatrix.oneRatio id m = .ok (.fin o) ∧ BitMatrix.oneRatio id m' = .ok (.fin o') ∧ o ≤ o' ∧
      BitMatrix.compare id Alloc.ok m m' = .ok (.fin (1 - (o' - o))) ∧ BitMatrix.compare id Alloc.ok m' m = .ok (.fin (1 - (o' - o))) ∧
      BitMatrix.xor Alloc.ok m m' = .ok x ∧ ∀ i j, Lit x i j ↔ Lit m' i j ∧ ¬ Lit m i j := by
  obtain ⟨x, ex, w, d1, d2, -⟩ := xor_ok (al := Alloc.ok) hm.inv.1 hm'.inv.1 h1 h2 h3 h4 rfl
  have hc : ∀ i j, i < m.isize → j < m.jsize → x.cell i j = (m.cell i j != m'.cell i j) := by
    obtain ⟨x', ex', -, -, h⟩ := C08_xor m m' hm hm' h1 h2 h3 h4
    rw [ex] at ex'; cases ex'
    intro i j hi hj
    have := h i j hi hj _ _ (get_eq hm.inv.1 hi hj) (get_eq hm'.inv.1 (h1 ▸ hi) (h2 ▸ hj))
    rw [get_eq w (d1 ▸ hi) (d2 ▸ hj)] at this
    exact Res.ok.inj this
  have hcnt := countOf_union hm hm' h1 h2 hsub
  have hcq : (countOf m' true : ℚ) = countOf m true + diffCount m m' := by exact_mod_cast hcnt.symm
  have e1 := (C10_ratio m hm h3 h4 hs).1
  have e2 := (C10_ratio m' hm' (h1 ▸ h3) (h2 ▸ h4) (by rw [← h1, ← h2]; exact hs)).1
  have c1 := (C09_compare m m' hm hm' h1 h2 h3 h4 hs).1
  have c2 := (C09_compare m' m hm' hm h1.symm h2.symm (h1 ▸ h3) (h2 ▸ h4) (by rw [← h1, ← h2]; exact hs)).1
  rw [← h1, ← h2] at e2 c2
  rw [diffCount_symm m' m h1.symm h2.symm] at c2
  have hpos : (0 : ℚ) < (m.isize * m.jsize : ℕ) := by exact_mod_cast Nat.mul_pos h3 h4
  have key : (diffCount m m' : ℚ) / (m.isize * m.jsize : ℕ) =
      (countOf m' true : ℚ) / (m.isize * m.jsize : ℕ) - (countOf m true : ℚ) / (m.isize * m.jsize : ℕ) := by
    rw [hcq, ← sub_div]; congr 1; ring
  refine ⟨x, _, _, e1, e2, ?_, by rw [c1, key], by rw [c2, key], ex, fun i j => ?_⟩
  · apply div_le_div_of_nonneg_right _ hpos.le
    rw [hcq]
    have : (0 : ℚ) ≤ diffCount m m' := by positivity
    linarith
  · have hq := hsub i j
    rw [lit_iff hm.inv.1, lit_iff hm'.inv.1, ← h1, ← h2] at hq
    rw [lit_iff hm.inv.1, lit_iff hm'.inv.1, lit_iff w, d1, d2, ← h1, ← h2]
    by_cases hb : i < m.isize ∧ j < m.jsize
    · obtain ⟨hi, hj⟩ := hb
      rw [hc i j hi hj]
      revert hq
      cases m.cell i j <;> cases m'.cell i j <;> simp [hi, hj]
    · tauto

/-- every layer of a file rendered: which cells are on -/
theorem render_exact {rnd : ℚ → ℚ} (hr : Rounding rnd) {a : Nat} {ls : List Int} {mn mx : Coord} {R C : Nat}
    (hg : Grid mn mx R C) {al : Alloc} (hal : al R (bytesPerRow C) = none) {rs : List (Msk.Rect × Int)} {mem : Memory}
    (hL : Holds (mem.layouts a) rs) (hH : ∀ e g, some g ∈ (mem.elements e).geometries → g.coords.length < 2 ^ 64)
    (hpos : ∀ q ∈ rs, 0 ≤ q.1.w ∧ 0 ≤ q.1.h) (hf : ∀ q ∈ rs, RectFits q.1) (k depth : Nat) :
    ∀ (ns : List Int) (h : List (GenCall × Bool)) (g : Generator), History rnd h g →
      (GenCall.init (some a) ls mn mx, true) ∈ h →
      (∀ q ∈ rs, q.2 ∈ ns → Client.Meets mn mx q.1 → Client.StartsInside mn mx R C q.1 ∨ Client.Covers mn mx q.1) →
      ∃ ms g', Verif.Client.renderLayers rnd al (.ok k) mem depth R C ns g = some (.ok ms g') ∧
        List.Forall₂ (fun n m => ∀ i j, Lit m i j ↔
          ∃ q ∈ rs, q.2 = n ∧ Client.Meets mn mx q.1 ∧ LightsAlone rnd mn mx R C (boxR q) i j) ns ms
  | [], h, g, _, _, _ => ⟨[], g, rfl, .nil⟩
  | n :: ns, h, g, hh, hm, hd => by
    have hrd := ready_after hr hh hm hg hal n
    obtain ⟨txt, g1, e, hb, hs⟩ := draw_layer hrd hg hL hH hpos hf
      (fun q hq hn => hd q hq (by rw [hn]; exact List.mem_cons_self)) k depth
    have hh' := (hh.call (.layers (ls := [n]))).call (.procRet e)
    obtain ⟨ms, g', e', hms⟩ := render_exact hr hg hal hL hH hpos hf k depth ns _ g1 hh'
      (List.mem_append_left _ (List.mem_append_left _ hm)) (fun q hq hn => hd q hq (List.mem_cons_of_mem _ hn))
    obtain ⟨-, -, -, -, -, l⟩ := C41_bitmap rnd _ a mn mx [n] al R C hrd k mem depth (holds_fits hL hH) _ _ _ e
    refine ⟨getMatrix g1 :: ms, g', ?_, .cons (fun i j => (l i j).trans ?_) hms⟩
    · simp only [Verif.Client.renderLayers, e, e']
    · constructor
      · rintro ⟨s, hs, h⟩
        obtain ⟨q, hq, hn, hme, rfl⟩ := (holds_selected hL _ hpos mn mx n s).1 hs
        exact ⟨q, hq, hn, hme, h⟩
      · rintro ⟨q, hq, hn, hme, h⟩
        exact ⟨_, (holds_selected hL _ hpos mn mx n _).2 ⟨q, hq, hn, hme, rfl⟩, h⟩

theorem forall₃_lit {ns : List Int} {ms ms2 ms3 : List BitMatrix} {P P2 P3 : Int → BitMatrix → Prop} {Q : BitMatrix → BitMatrix → BitMatrix → Prop}
    (hq : ∀ n m m2 m3, P n m → P2 n m2 → P3 n m3 → Q m m2 m3)
    (h : List.Forall₂ P ns ms) (h2 : List.Forall₂ P2 ns ms2) (h3 : List.Forall₂ P3 ns ms3) (l : Nat) (m m2 m3 : BitMatrix)
    (e : ms[l]? = some m) (e2 : ms2[l]? = some m2) (e3 : ms3[l]? = some m3) : Q m m2 m3 := by
  induction h generalizing ms2 ms3 l with
  | nil => simp at e
  | cons hd _ ih =>
    cases h2 with
    | cons hd2 t2 =>
      cases h3 with
      | cons hd3 t3 =>
        cases l with
        | zero =>
          simp only [List.getElem?_cons_zero, Option.some.injEq] at e e2 e3
          subst e e2 e3
          exact hq _ _ _ _ hd hd2 hd3
        | succ l => exact ih t2 t3 l (by simpa using e) (by simpa using e2) (by simpa using e3)

/-- **C89** From files to bitmaps: an MSK file that contains the rectangles of two others and no more (in any order, under any of the names of
their layers).  Each of its bitmaps, layer by layer, is the union of the bitmaps of the two. -/
theorem C89_files (env env2 env3 : Msk.Env) (name name2 name3 : List Nat) (r r2 r3 : Msk.Reader) (cr cr2 cr3 : Bool)
    (header header2 header3 : List UInt8) (rs rs2 rs3 : List (Msk.Rect × Int)) (hp : PlainFile env name r cr header rs)
    (hp2 : PlainFile env2 name2 r2 cr2 header2 rs2) (hp3 : PlainFile env3 name3 r3 cr3 header3 rs3)
    (hset : ∀ p : Int × Int × Int × Int × Int, (∃ q ∈ rs3, (q.1.x, q.1.y, q.1.w, q.1.h, q.2) = p) ↔
      ∃ q ∈ rs ++ rs2, (q.1.x, q.1.y, q.1.w, q.1.h, q.2) = p)
    (addr addr2 addr3 : Nat) (heap heap2 heap3 : Elements)
    (hheap : ∀ e g, some g ∈ (heap e).geometries → g.coords.length < 2 ^ 64)
    (hheap2 : ∀ e g, some g ∈ (heap2 e).geometries → g.coords.length < 2 ^ 64)
    (hheap3 : ∀ e g, some g ∈ (heap3 e).geometries → g.coords.length < 2 ^ 64) :
    ∃ w w2 w3, Msk.read env addr false ⟨r, {}, heap⟩ = .ok true w ∧ Msk.read env2 addr2 false ⟨r2, {}, heap2⟩ = .ok true w2 ∧
      Msk.read env3 addr3 false ⟨r3, {}, heap3⟩ = .ok true w3 ∧
      ∀ (rnd : ℚ → ℚ) (_ : Rounding rnd) (mn mx : Coord) (R C : Nat) (_ : Grid mn mx R C) (al : Alloc)
        (_ : al R (bytesPerRow C) = none) (mem mem2 mem3 : Memory) (a a2 a3 : Nat)
        (_ : mem.layouts a = w.data) (_ : mem.elements = w.heap) (_ : mem2.layouts a2 = w2.data) (_ : mem2.elements = w2.heap)
        (_ : mem3.layouts a3 = w3.data) (_ : mem3.elements = w3.heap) (k depth : Nat) (ns : List Int)
        (_ : ∀ q ∈ rs ++ rs2, q.2 ∈ ns → Client.Meets mn mx q.1 → Client.StartsInside mn mx R C q.1 ∨ Client.Covers mn mx q.1),
        ∃ g g2 g3 ms ms2 ms3 g' g2' g3', Generator.init (some a) [0] mn mx (Generator.new rnd) = .ok () g ∧
          Generator.init (some a2) [0] mn mx (Generator.new rnd) = .ok () g2 ∧
          Generator.init (some a3) [0] mn mx (Generator.new rnd) = .ok () g3 ∧
          Verif.Client.renderLayers rnd al (.ok k) mem depth R C ns g = some (.ok ms g') ∧
          Verif.Client.renderLayers rnd al (.ok k) mem2 depth R C ns g2 = some (.ok ms2 g2') ∧
          Verif.Client.renderLayers rnd al (.ok k) mem3 depth R C ns g3 = some (.ok ms3 g3') ∧
          ms.length = ns.length ∧ ms2.length = ns.length ∧ ms3.length = ns.length ∧
          ∀ (l : Nat) (m m2 m3 : BitMatrix), ms[l]? = some m → ms2[l]? = some m2 → ms3[l]? = some m3 → ∀ i j, Lit m3 i j ↔ Lit m i j ∨ Lit m2 i j := by
  obtain ⟨w, e, hL, hg, _, hoth⟩ := read_plain hp addr heap
  obtain ⟨w2, e2, hL2, hg2, _, hoth2⟩ := read_plain hp2 addr2 heap2
  obtain ⟨w3, e3, hL3, hg3, _, hoth3⟩ := read_plain hp3 addr3 heap3
  refine ⟨w, w2, w3, e, e2, e3, fun rnd hr mn mx R C hgr al hal mem mem2 mem3 a a2 a3 ha he ha2 he2 ha3 he3 k depth ns hd => ?_⟩
  have wp := hgr.wpos
  have hpw := hgr.hpos
  have back : ∀ q ∈ rs3, ∃ q' ∈ rs ++ rs2, q'.2 = q.2 ∧ place q'.1 = place q.1 := by
    intro q hq
    obtain ⟨q', hq', h⟩ := (hset _).1 ⟨q, hq, rfl⟩
    simp only [Prod.mk.injEq] at h
    obtain ⟨h1, h2, h3, h4, h5⟩ := h
    exact ⟨q', hq', h5, by unfold place; rw [h1, h2, h3, h4]⟩
  have forth : ∀ q ∈ rs ++ rs2, ∃ q' ∈ rs3, q'.2 = q.2 ∧ place q'.1 = place q.1 := by
    intro q hq
    obtain ⟨q', hq', h⟩ := (hset _).2 ⟨q, hq, rfl⟩
    simp only [Prod.mk.injEq] at h
    obtain ⟨h1, h2, h3, h4, h5⟩ := h
    exact ⟨q', hq', h5, by unfold place; rw [h1, h2, h3, h4]⟩
  have inits : ∀ a : Nat, ∃ g, Generator.init (some a) [0] mn mx (Generator.new rnd) = .ok () g := fun a =>
    (C40_first_init rnd [] (Generator.new rnd) .start (by simp) a [0] (by simp) mn mx).1 ⟨by omega, by omega⟩
  obtain ⟨g, hi⟩ := inits a
  obtain ⟨g2, hi2⟩ := inits a2
  obtain ⟨g3, hi3⟩ := inits a3
  have hh := (History.start (rnd := rnd)).call (.initRet hi)
  have hh2 := (History.start (rnd := rnd)).call (.initRet hi2)
  have hh3 := (History.start (rnd := rnd)).call (.initRet hi3)
  obtain ⟨ms, g', r1, f1⟩ := render_exact (ls := [0]) hr hgr hal (by rw [ha]; exact hL) (by rw [he]; exact heap_fits hheap hg hoth)
    hp.sizes hp.fits k depth ns _ g hh (by simp) (fun q hq => hd q (List.mem_append_left _ hq))
  obtain ⟨ms2, g2', r2, f2⟩ := render_exact (ls := [0]) hr hgr hal (by rw [ha2]; exact hL2) (by rw [he2]; exact heap_fits hheap2 hg2 hoth2)
    hp2.sizes hp2.fits k depth ns _ g2 hh2 (by simp) (fun q hq => hd q (List.mem_append_right _ hq))
  obtain ⟨ms3, g3', r3, f3⟩ := render_exact (ls := [0]) hr hgr hal (by rw [ha3]; exact hL3) (by rw [he3]; exact heap_fits hheap3 hg3 hoth3)
    hp3.sizes hp3.fits k depth ns _ g3 hh3 (by simp) (fun q hq hn hme => by
      obtain ⟨q', hq', h1, h2⟩ := back q hq
      have := hd q' hq' (h1 ▸ hn) ((meets_place h2).2 hme)
      simp only [place, Prod.mk.injEq] at h2
      obtain ⟨p1, p2, p3, p4⟩ := h2
      rcases this with h | h
      · obtain ⟨i1, i2, i3, i4, i5, i6⟩ := h
        rw [p1, p2, p3, p4] at *
        exact Or.inl ⟨i1, i2, i3, i4, i5, i6⟩
      · unfold Client.Covers at *
        rw [p1, p2, p3, p4] at h
        exact Or.inr h)
  refine ⟨g, g2, g3, ms, ms2, ms3, g', g2', g3', hi, hi2, hi3, r1, r2, r3, f1.length_eq.symm, f2.length_eq.symm, f3.length_eq.symm,
    forall₃_lit ?_ f1 f2 f3⟩
  intro n m m2 m3 l1 l2 l3 i j
  rw [l1, l2, l3]
  constructor
  · rintro ⟨q, hq, hn, hme, h⟩
    obtain ⟨q', hq', h1, h2⟩ := back q hq
    have hme' := (meets_place h2).2 hme
    rw [← boxR_place h2 h1] at h
    rcases List.mem_append.mp hq' with hq' | hq'
    · exact Or.inl ⟨q', hq', h1.trans hn, hme', h⟩
    · exact Or.inr ⟨q', hq', h1.trans hn, hme', h⟩
  · rintro (⟨q, hq, hn, hme, h⟩ | ⟨q, hq, hn, hme, h⟩)
    · obtain ⟨q', hq', h1, h2⟩ := forth q (List.mem_append_left _ hq)
      rw [← boxR_place h2 h1] at h
      exact ⟨q', hq', h1.trans hn, (meets_place h2).2 hme, h⟩
    · obtain ⟨q', hq', h1, h2⟩ := forth q (List.mem_append_right _ hq)
      rw [← boxR_place h2 h1] at h
      exact ⟨q', hq', h1.trans hn, (meets_place h2).2 hme, h⟩

/-! ### the hypotheses can be met -/

/-- the file of C62, `exWhole` (C87), and a file with all their rectangles in another order -/
def exAll : List (Msk.Rect × Int) :=
  [(⟨0, 0, 10, 10, "NW"⟩, 1), (⟨23, 63, 34, 18, "ME"⟩, 23), (⟨20, 60, 25, 20, "ME"⟩, 23)]

theorem exAll_plain : PlainFile (exEnv (Msk.fileText [10] (Msk.bytes "VERSION 1") (exAll.map Prod.fst))) exName { fileName := exName } false
    (Msk.bytes "VERSION 1") exAll where
  reader := by
    have e : Msk.narrow exName = lit "d/x.msk" := by decide +kernel
    refine (C50_get_reader _ _ _).mpr ⟨⟨ex_name, Msk.fileText [10] (Msk.bytes "VERSION 1") (exAll.map Prod.fst), by simp [exEnv, e], ?_⟩, rfl⟩
    decide +kernel
  content := by
    have e : Msk.narrow exName = lit "d/x.msk" := by decide +kernel
    simp [exEnv, e]
  names := ⟨⟨_, rfl⟩, _, rfl⟩
  line := by decide +kernel
  noBB := by decide +kernel
  noREC := by decide +kernel
  noTITLE := by decide +kernel
  layers := by
    simp only [exAll, List.mem_cons, List.not_mem_nil, or_false, forall_eq_or_imp, forall_eq]
    exact ⟨.nw, .me, .me⟩
  fits := by
    simp only [exAll, List.mem_cons, List.not_mem_nil, or_false, forall_eq_or_imp, forall_eq]
    unfold RectFits inI32; decide
  sizes := by
    simp only [exAll, List.mem_cons, List.not_mem_nil, or_false, forall_eq_or_imp, forall_eq]
    decide
  some_rect := by simp [exAll]

example : ∃ ms ms2 ms3 : List BitMatrix, ms.length = 2 ∧ ms2.length = 2 ∧ ms3.length = 2 ∧
    ∀ (l : Nat) (m m2 m3 : BitMatrix), ms[l]? = some m → ms2[l]? = some m2 → ms3[l]? = some m3 → ∀ i j, Lit m3 i j ↔ Lit m i j ∨ Lit m2 i j := by
  obtain ⟨w, w2, w3, -, -, -, h⟩ := C89_files _ _ _ _ _ _ _ _ _ _ _ _ _ _ _ _ _ _ ex_plain exWhole_plain exAll_plain (by
      intro p
      simp only [exRects, exWhole, exAll, List.cons_append, List.nil_append, List.mem_cons, List.not_mem_nil, or_false, exists_eq_or_imp,
        exists_eq_left]
      constructor <;> rintro (h | h | h) <;> simp [h]) 7 7 7 (fun _ => {}) (fun _ => {}) (fun _ => {}) (by simp) (by simp) (by simp)
  obtain ⟨g, g2, g3, ms, ms2, ms3, g', g2', g3', -, -, -, -, -, -, l1, l2, l3, hl⟩ := h rne rne_rounding ⟨0, 0⟩ ⟨100, 100⟩ 10 10
    ⟨by unfold inI32; decide, by unfold inI32; decide, by unfold inI32; decide, by decide, by decide, by decide, by decide, by decide, by decide⟩
    Alloc.ok rfl ⟨fun _ => w.data, w.heap⟩ ⟨fun _ => w2.data, w2.heap⟩ ⟨fun _ => w3.data, w3.heap⟩ 0 0 0 rfl rfl rfl rfl rfl rfl 0 0 [23, 1] (by
      intro q hq _ hme
      simp only [exRects, exWhole, List.cons_append, List.nil_append, List.mem_cons, List.not_mem_nil, or_false] at hq
      rcases hq with rfl | rfl | rfl
      all_goals exact .inl ⟨by decide, by decide, by unfold inI32; decide, by unfold inI32; decide, by decide, by decide⟩)
  exact ⟨ms, ms2, ms3, l1, l2, l3, hl⟩

/-- reading a file of rectangles and drawing one of its layers: what the hypotheses of `C89_union` ask for -/
theorem plain_process {env : Msk.Env} {name : List Nat} {r : Msk.Reader} {cr : Bool} {header : List UInt8} {rs : List (Msk.Rect × Int)}
    (hp : PlainFile env name r cr header rs) {mn mx : Coord} {R C : Nat} (hgr : Grid mn mx R C) (n : Int)
    (hd : ∀ q ∈ rs, q.2 = n → Client.Meets mn mx q.1 → Client.StartsInside mn mx R C q.1 ∨ Client.Covers mn mx q.1) :
    ∃ mem g txt g', Ready rne g 7 mn mx [n] Alloc.ok R C ∧ LayoutFits (mem.layouts 7) mem.elements ∧
      Generator.process rne Alloc.ok (.ok 0) mem 0 R C g = some (.ok (true, txt) g') ∧
      ∀ s, Selected (mem.layouts 7) mem.elements (wsOf mn mx) [n] s ↔ ∃ q ∈ rs, q.2 = n ∧ Client.Meets mn mx q.1 ∧ s = boxR q := by
  have wp := hgr.wpos
  have hpw := hgr.hpos
  obtain ⟨w, e, hL, hg, _, hoth⟩ := read_plain hp 7 (fun _ => {})
  obtain ⟨g, hi⟩ := (C40_first_init rne [] (Generator.new rne) .start (by simp) 7 [0] (by simp) mn mx).1 ⟨by omega, by omega⟩
  have hh := (History.start (rnd := rne)).call (.initRet hi)
  have hrd := ready_after rne_rounding hh (by simp : (GenCall.init (some 7) [0] mn mx, true) ∈ _) hgr (al := Alloc.ok) rfl n
  have hH := heap_fits (heap := fun _ => {}) (by simp) hg hoth
  obtain ⟨txt, g', ep, -, -⟩ := draw_layer (mem := ⟨fun _ => w.data, w.heap⟩) hrd hgr hL hH hp.sizes hp.fits hd 0 0
  exact ⟨⟨fun _ => w.data, w.heap⟩, _, txt, g', hrd, holds_fits hL hH, ep, holds_selected hL _ hp.sizes mn mx n⟩

/-- the hypotheses of `C89_union` and `C89_superset`: layer 23 of the three files -/
example : ∃ (mem mem2 mem3 : Memory) (g g2 g3 g' g2' g3' : Generator) (txt txt2 txt3 : List UInt8),
    Generator.process rne Alloc.ok (.ok 0) mem 0 10 10 g = some (.ok (true, txt) g') ∧
    Generator.process rne Alloc.ok (.ok 0) mem2 0 10 10 g2 = some (.ok (true, txt2) g2') ∧
    Generator.process rne Alloc.ok (.ok 0) mem3 0 10 10 g3 = some (.ok (true, txt3) g3') ∧
    (∀ i j, Lit (getMatrix g3') i j ↔ Lit (getMatrix g') i j ∨ Lit (getMatrix g2') i j) ∧
    ∀ i j, Lit (getMatrix g') i j → Lit (getMatrix g3') i j := by
  have hgr : Grid ⟨0, 0⟩ ⟨100, 100⟩ 10 10 :=
    ⟨by unfold inI32; decide, by unfold inI32; decide, by unfold inI32; decide, by decide, by decide, by decide, by decide, by decide, by decide⟩
  have inside : ∀ q ∈ exAll, q.2 = 23 → Client.Meets ⟨0, 0⟩ ⟨100, 100⟩ q.1 →
      Client.StartsInside ⟨0, 0⟩ ⟨100, 100⟩ 10 10 q.1 ∨ Client.Covers ⟨0, 0⟩ ⟨100, 100⟩ q.1 := by
    intro q hq _ _
    simp only [exAll, List.mem_cons, List.not_mem_nil, or_false] at hq
    rcases hq with rfl | rfl | rfl <;>
      exact .inl ⟨by decide, by decide, by unfold inI32; decide, by unfold inI32; decide, by decide, by decide⟩
  obtain ⟨mem, g, txt, g', h1, h2, h3, h4⟩ := plain_process ex_plain hgr 23
    (fun q hq => inside q (by
      simp only [exRects, List.mem_cons, List.not_mem_nil, or_false] at hq
      rcases hq with rfl | rfl <;> simp [exAll]))
  obtain ⟨mem2, g2, txt2, g2', i1, i2, i3, i4⟩ := plain_process exWhole_plain hgr 23
    (fun q hq => inside q (by
      simp only [exWhole, List.mem_cons, List.not_mem_nil, or_false] at hq
      subst hq; simp [exAll]))
  obtain ⟨mem3, g3, txt3, g3', k1, k2, k3, k4⟩ := plain_process exAll_plain hgr 23 inside
  have hsel : ∀ s, Selected (mem3.layouts 7) mem3.elements (wsOf ⟨0, 0⟩ ⟨100, 100⟩) [23] s ↔
      Selected (mem.layouts 7) mem.elements (wsOf ⟨0, 0⟩ ⟨100, 100⟩) [23] s ∨
      Selected (mem2.layouts 7) mem2.elements (wsOf ⟨0, 0⟩ ⟨100, 100⟩) [23] s := by
    intro s
    rw [h4, i4, k4]
    simp only [exAll, exRects, exWhole, List.mem_cons, List.not_mem_nil, or_false, exists_eq_or_imp, exists_eq_left]
    tauto
  refine ⟨mem, mem2, mem3, g, g2, g3, g', g2', g3', txt, txt2, txt3, h3, i3, k3, ?_, ?_⟩
  · exact (C89_union rne _ _ 10 10 g 7 _ _ h1 0 mem 0 h2 g2 7 _ _ i1 0 mem2 0 i2 g3 7 _ _ k1 0 mem3 0 k2 hsel _ _ _ _ _ _ h3 i3).2 _ _ _ k3
  · exact (C89_superset rne _ _ 10 10 g 7 _ _ h1 0 mem 0 h2 g3 7 _ _ k1 0 mem3 0 k2 (fun s hs => (hsel s).2 (Or.inl hs)) _ _ _ k3).2 _ _ _ h3

/-- the hypotheses of `C89_added`: an empty bitmap and the same with one cell on -/
example : ∃ m' x, BitMatrix.set 1 3 true (BitMatrix.new Alloc.ok 2 5) = .ok () m' ∧
    BitMatrix.xor Alloc.ok (BitMatrix.new Alloc.ok 2 5) m' = .ok x ∧ Lit x 1 3 := by
  have hb : Built (BitMatrix.new Alloc.ok 2 5) := .new 2 5 (by norm_num) (by norm_num)
  refine ⟨⟨[[0], [16]], 2, 5⟩, ?_⟩
  have e : BitMatrix.set 1 3 true (BitMatrix.new Alloc.ok 2 5) = .ok () ⟨[[0], [16]], 2, 5⟩ := by decide +kernel
  obtain ⟨x, o, o', -, -, -, -, -, ex, h⟩ := C89_added (BitMatrix.new Alloc.ok 2 5) ⟨[[0], [16]], 2, 5⟩ hb (.set hb e) rfl rfl (by decide)
    (by decide) (by decide +kernel) (by
      intro i j h
      exact absurd h blank_dark)
  exact ⟨x, e, ex, (h 1 3).2 ⟨by unfold Lit; decide +kernel, blank_dark⟩⟩

end Verif.Props
