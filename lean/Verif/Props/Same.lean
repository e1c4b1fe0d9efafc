import Verif.Props.Similar

/-! C88: the bitmap depends only on the set of geometries drawn. -/

namespace Verif.Props
open Verif BitMatrix Zond Spec Ieee Generator Client

/-- what a returning `Process` drew -/
theorem drawn_ones {rnd : ℚ → ℚ} {g : Generator} {a : Nat} {mn mx : Coord} {req : List Int} {al : Alloc} {R C : Nat}
    (hr : Ready rnd g a mn mx req al R C) {k : Nat} {mem : Memory} {depth : Nat}
    (hfit : LayoutFits (mem.layouts a) mem.elements) {b : Bool} {txt : List UInt8} {g' : Generator}
    (hp : Generator.process rnd al (.ok k) mem depth R C g = some (.ok (b, txt) g')) :
    ∃ L : List Geometry, (∀ s, s ∈ L ↔ Selected (mem.layouts a) mem.elements (wsOf mn mx) req s) ∧
      (∀ s ∈ L, ∃ P, Paints R C (zondGeometry rnd (genRaster rnd mn mx R C) (some s)) P) ∧
      Ones (blank R C) (getMatrix g') (fun i j => ∃ s ∈ L, ∃ P, Paints R C (zondGeometry rnd (genRaster rnd mn mx R C) (some s)) P ∧ P i j) ∧
      print (getMatrix g') = .ok txt := by
  have hobs := ready_obs hr k mem depth
  rw [hp] at hobs
  simp only [Option.map_some, Out.mapS, drawOut] at hobs
  have hws : (genRaster rnd mn mx R C).ws = wsOf mn mx := rfl
  rw [hws] at hobs
  cases hg : gatherLibs mem.elements depth (wsOf mn mx) req (mem.layouts a).libraries with
  | none => rw [hg] at hobs; cases hobs
  | some r =>
    rw [hg] at hobs
    cases r with
    | ub => cases hobs
    | throw e => cases hobs
    | ok gl =>
      obtain ⟨gs, ls⟩ := gl
      simp only at hobs
      have hmem := gatherLibs_mem hfit.2 hfit.1 hg
      cases hz : zondAll rnd (genRaster rnd mn mx R C) ((gs ++ ls).map some) (blank R C) with
      | ub => rw [hz] at hobs; cases hobs
      | throw e m => rw [hz] at hobs; cases hobs
      | ok u m =>
        rw [hz] at hobs
        simp only at hobs
        cases hpr : print m with
        | ub => rw [hpr] at hobs; cases hobs
        | throw e => rw [hpr] at hobs; cases hobs
        | ok t =>
          rw [hpr] at hobs
          simp only [Option.some.injEq, Out.ok.injEq, Prod.mk.injEq] at hobs
          obtain ⟨⟨rfl, rfl⟩, hbm⟩ := hobs
          unfold getMatrix
          rw [hbm]
          obtain ⟨p, o⟩ := zondAll_ok (blank_shape R C) hz
          refine ⟨gs ++ ls, fun s => ?_, fun s hs => p (some s) (List.mem_map_of_mem hs), o.congr fun i j => ?_, hpr⟩
          · exact List.mem_append.trans (hmem s)
          · constructor
            · rintro ⟨g0, hg0, h⟩
              obtain ⟨s, hs, rfl⟩ := List.mem_map.mp hg0
              exact ⟨s, hs, h⟩
            · rintro ⟨s, hs, h⟩
              exact ⟨some s, List.mem_map_of_mem hs, h⟩

/-- **C88** Two generators, initialised for the same window, process two layouts (in any memories, after any histories, with any lists of
requested layers) at the same size.  If the sets of geometries to draw are equal — whatever their order, their multiplicity, and whatever
else the layouts contain — and the first call returns, then the second one does not throw, and if it returns, text and bitmap are the same,
down to the unused bits. -/
theorem C88_same_set (rnd : ℚ → ℚ) (mn mx : Coord) (R C : Nat)
    (g : Generator) (a : Nat) (req : List Int) (al : Alloc) (hr : Ready rnd g a mn mx req al R C) (k : Nat) (mem : Memory) (depth : Nat)
    (hfit : LayoutFits (mem.layouts a) mem.elements)
    (g2 : Generator) (a2 : Nat) (req2 : List Int) (al2 : Alloc) (hr2 : Ready rnd g2 a2 mn mx req2 al2 R C) (k2 : Nat) (mem2 : Memory)
    (depth2 : Nat) (hfit2 : LayoutFits (mem2.layouts a2) mem2.elements)
    (hsel : ∀ s, Selected (mem.layouts a) mem.elements (wsOf mn mx) req s ↔ Selected (mem2.layouts a2) mem2.elements (wsOf mn mx) req2 s)
    (b : Bool) (txt : List UInt8) (g' : Generator) (hp : Generator.process rnd al (.ok k) mem depth R C g = some (.ok (b, txt) g')) :
    (∀ e s, Generator.process rnd al2 (.ok k2) mem2 depth2 R C g2 ≠ some (.throw e s)) ∧
    ∀ b2 txt2 g2', Generator.process rnd al2 (.ok k2) mem2 depth2 R C g2 = some (.ok (b2, txt2) g2') →
      b2 = b ∧ txt2 = txt ∧ getMatrix g2' = getMatrix g' := by
  obtain ⟨L, hL, pa, o, hpr⟩ := drawn_ones hr hfit hp
  constructor
  · intro e s h
    obtain ⟨-, s, hs, ht⟩ := (C41_returns_or_throws rnd g2 a2 mn mx req2 al2 R C hr2 k2 mem2 depth2 hfit2).1 e s h
    obtain ⟨P, hP⟩ := pa s ((hL s).2 ((hsel s).2 hs))
    obtain ⟨m, e, _⟩ := hP _ (blank_shape R C)
    rw [ht] at e; cases e
  · intro b2 txt2 g2' h2
    obtain ⟨L2, hL2, _, o2, hpr2⟩ := drawn_ones hr2 hfit2 h2
    have hm : getMatrix g2' = getMatrix g' := by
      refine ones_unique o2 o fun i j => ?_
      constructor
      · rintro ⟨s, hs, h⟩; exact ⟨s, (hL s).2 ((hsel s).2 ((hL2 s).1 hs)), h⟩
      · rintro ⟨s, hs, h⟩; exact ⟨s, (hL2 s).2 ((hsel s).1 ((hL s).1 hs)), h⟩
    obtain ⟨rfl, -⟩ := C41_bitmap rnd g2 a2 mn mx req2 al2 R C hr2 k2 mem2 depth2 hfit2 b2 txt2 g2' h2
    obtain ⟨rfl, -⟩ := C41_bitmap rnd g a mn mx req al R C hr k mem depth hfit b txt g' hp
    rw [hm, hpr] at hpr2
    exact ⟨rfl, (Res.ok.inj hpr2).symm, hm⟩


/-- **C88** … and the second call does return if its layout has no null library and, of the first requested layers, what touches the window
is rectangles and polygons. -/
theorem C88_same_set_returns (rnd : ℚ → ℚ) (mn mx : Coord) (R C : Nat)
    (g : Generator) (a : Nat) (req : List Int) (al : Alloc) (hr : Ready rnd g a mn mx req al R C) (k : Nat) (mem : Memory) (depth : Nat)
    (hfit : LayoutFits (mem.layouts a) mem.elements)
    (g2 : Generator) (a2 : Nat) (req2 : List Int) (al2 : Alloc) (hr2 : Ready rnd g2 a2 mn mx req2 al2 R C) (k2 : Nat) (mem2 : Memory)
    (depth2 : Nat) (hfit2 : LayoutFits (mem2.layouts a2) mem2.elements)
    (hsel : ∀ s, Selected (mem.layouts a) mem.elements (wsOf mn mx) req s ↔ Selected (mem2.layouts a2) mem2.elements (wsOf mn mx) req2 s)
    (hlib : none ∉ (mem2.layouts a2).libraries)
    (htype : ∀ p, Candidate (mem2.layouts a2) req2 p → Touches (wsOf mn mx) p → p.type = .rectangle ∨ p.type = .polygon)
    (b : Bool) (txt : List UInt8) (g' : Generator) (hp : Generator.process rnd al (.ok k) mem depth R C g = some (.ok (b, txt) g')) :
    ∃ g2', Generator.process rnd al2 (.ok k2) mem2 depth2 R C g2 = some (.ok (b, txt) g2') ∧ getMatrix g2' = getMatrix g' := by
  obtain ⟨L, hL, pa, o, hpr⟩ := drawn_ones hr hfit hp
  obtain ⟨⟨b2, txt2⟩, g2', h⟩ := (C41_returns_or_throws rnd g2 a2 mn mx req2 al2 R C hr2 k2 mem2 depth2 hfit2).2 hlib
    (fun p hc ht hty => by rcases htype p hc ht with h | h <;> rw [h] at hty <;> cases hty)
    (fun p hc ht hty => by rcases htype p hc ht with h | h <;> rw [h] at hty <;> cases hty)
    (fun s hs => by
      obtain ⟨P, hP⟩ := pa s ((hL s).2 ((hsel s).2 hs))
      obtain ⟨m, e, _⟩ := hP _ (blank_shape R C)
      exact ⟨m, e⟩)
  obtain ⟨rfl, rfl, hm⟩ := (C88_same_set rnd mn mx R C g a req al hr k mem depth hfit g2 a2 req2 al2 hr2 k2 mem2 depth2 hfit2 hsel b txt g'
    hp).2 _ _ _ h
  exact ⟨g2', h, hm⟩

/-- position and size of a rectangle: everything but the name of its layer -/
def place (r : Msk.Rect) : Int × Int × Int × Int := (r.x, r.y, r.w, r.h)

theorem boxR_place {p q : Msk.Rect × Int} (h : place p.1 = place q.1) (hn : p.2 = q.2) : boxR p = boxR q := by
  simp only [place, Prod.mk.injEq] at h
  obtain ⟨h1, h2, h3, h4⟩ := h
  unfold boxR
  rw [h1, h2, h3, h4, hn]

theorem meets_place {mn mx : Coord} {p q : Msk.Rect} (h : place p = place q) : Client.Meets mn mx p ↔ Client.Meets mn mx q := by
  simp only [place, Prod.mk.injEq] at h
  obtain ⟨h1, h2, h3, h4⟩ := h
  unfold Client.Meets
  rw [h1, h2, h3, h4]

/-- every rectangle of the requested layers of the first list that meets the window is also in the second one -/
def Within' (mn mx : Coord) (ns : List Int) (rs rs' : List (Msk.Rect × Int)) : Prop :=
  ∀ q ∈ rs, q.2 ∈ ns → Client.Meets mn mx q.1 → ∃ q' ∈ rs', q'.2 = q.2 ∧ place q'.1 = place q.1

theorem render_two {rnd : ℚ → ℚ} (hr : Rounding rnd) {a a' : Nat} {ls ls' : List Int} {mn mx : Coord} {R C : Nat}
    (hg : Grid mn mx R C) {al al' : Alloc} (hal : al R (bytesPerRow C) = none) (hal' : al' R (bytesPerRow C) = none)
    {rs rs' : List (Msk.Rect × Int)} {mem mem' : Memory}
    (hL : Holds (mem.layouts a) rs) (hL' : Holds (mem'.layouts a') rs')
    (hH : ∀ e g, some g ∈ (mem.elements e).geometries → g.coords.length < 2 ^ 64)
    (hH' : ∀ e g, some g ∈ (mem'.elements e).geometries → g.coords.length < 2 ^ 64)
    (hpos : ∀ q ∈ rs, 0 ≤ q.1.w ∧ 0 ≤ q.1.h) (hf : ∀ q ∈ rs, RectFits q.1)
    (hpos' : ∀ q ∈ rs', 0 ≤ q.1.w ∧ 0 ≤ q.1.h) (hf' : ∀ q ∈ rs', RectFits q.1) (k k' depth depth' : Nat) :
    ∀ (ns : List Int) (h h' : List (GenCall × Bool)) (g g' : Generator), History rnd h g → History rnd h' g' →
      (GenCall.init (some a) ls mn mx, true) ∈ h → (GenCall.init (some a') ls' mn mx, true) ∈ h' →
      (∀ q ∈ rs, q.2 ∈ ns → Client.Meets mn mx q.1 → Client.StartsInside mn mx R C q.1 ∨ Client.Covers mn mx q.1) →
      (∀ q ∈ rs', q.2 ∈ ns → Client.Meets mn mx q.1 → Client.StartsInside mn mx R C q.1 ∨ Client.Covers mn mx q.1) →
      Within' mn mx ns rs rs' → Within' mn mx ns rs' rs →
      ∃ ms g1 g1', Verif.Client.renderLayers rnd al (.ok k) mem depth R C ns g = some (.ok ms g1) ∧
        Verif.Client.renderLayers rnd al' (.ok k') mem' depth' R C ns g' = some (.ok ms g1') ∧ ms.length = ns.length
  | [], h, h', g, g', _, _, _, _, _, _, _, _ => ⟨[], g, g', rfl, rfl, rfl⟩
  | n :: ns, h, h', g, g', hh, hh', hm, hm', hd, hd', w1, w2 => by
    have hrd := ready_after hr hh hm hg hal n
    have hrd' := ready_after hr hh' hm' hg hal' n
    obtain ⟨txt, g1, e, -, -⟩ := draw_layer hrd hg hL hH hpos hf
      (fun q hq hn => hd q hq (by rw [hn]; exact List.mem_cons_self)) k depth
    obtain ⟨txt', g1', e', -, -⟩ := draw_layer hrd' hg hL' hH' hpos' hf'
      (fun q hq hn => hd' q hq (by rw [hn]; exact List.mem_cons_self)) k' depth'
    have hsel : ∀ s, Selected (mem.layouts a) mem.elements (wsOf mn mx) [n] s ↔
        Selected (mem'.layouts a') mem'.elements (wsOf mn mx) [n] s := by
      intro s
      rw [holds_selected hL _ hpos, holds_selected hL' _ hpos']
      constructor
      · rintro ⟨q, hq, rfl, ht, rfl⟩
        obtain ⟨q', hq', hn', hpl⟩ := w1 q hq List.mem_cons_self ht
        exact ⟨q', hq', hn', (meets_place hpl).2 ht, (boxR_place hpl hn').symm⟩
      · rintro ⟨q, hq, rfl, ht, rfl⟩
        obtain ⟨q', hq', hn', hpl⟩ := w2 q hq List.mem_cons_self ht
        exact ⟨q', hq', hn', (meets_place hpl).2 ht, (boxR_place hpl hn').symm⟩
    obtain ⟨-, -, hbm⟩ := (C88_same_set rnd mn mx R C _ a [n] al hrd k mem depth (holds_fits hL hH) _ a' [n] al' hrd' k' mem' depth'
      (holds_fits hL' hH') hsel _ _ _ e).2 _ _ _ e'
    have n1 := (hh.call (.layers (ls := [n]))).call (.procRet e)
    have n2 := (hh'.call (.layers (ls := [n]))).call (.procRet e')
    obtain ⟨ms, s, s', r1, r2, hlen⟩ := render_two hr hg hal hal' hL hL' hH hH' hpos hf hpos' hf' k k' depth depth' ns _ _ g1 g1' n1 n2
      (List.mem_append_left _ (List.mem_append_left _ hm)) (List.mem_append_left _ (List.mem_append_left _ hm'))
      (fun q hq hn => hd q hq (List.mem_cons_of_mem _ hn)) (fun q hq hn => hd' q hq (List.mem_cons_of_mem _ hn))
      (fun q hq hn => w1 q hq (List.mem_cons_of_mem _ hn)) (fun q hq hn => w2 q hq (List.mem_cons_of_mem _ hn))
    refine ⟨getMatrix g1 :: ms, s, s', ?_, ?_, by simp [hlen]⟩
    · simp only [Verif.Client.renderLayers, e, r1]
    · simp only [Verif.Client.renderLayers, e', r2, hbm]

/-- **C88** From files to bitmaps: two MSK files whose rectangles on the requested layers, as far as they meet the window, are the same set
— in any order, any of them repeated, under any of the names of its layer, with any other rectangles outside the window or on other layers,
any line ends and header line — give equal bitmaps, layer by layer. -/
theorem C88_files (env env' : Msk.Env) (name name' : List Nat) (r r' : Msk.Reader) (cr cr' : Bool) (header header' : List UInt8)
    (rs rs' : List (Msk.Rect × Int)) (hp : PlainFile env name r cr header rs) (hp' : PlainFile env' name' r' cr' header' rs')
    (addr addr' : Nat) (heap heap' : Elements)
    (hheap : ∀ e g, some g ∈ (heap e).geometries → g.coords.length < 2 ^ 64)
    (hheap' : ∀ e g, some g ∈ (heap' e).geometries → g.coords.length < 2 ^ 64) :
    ∃ w w', Msk.read env addr false ⟨r, {}, heap⟩ = .ok true w ∧ Msk.read env' addr' false ⟨r', {}, heap'⟩ = .ok true w' ∧
      ∀ (rnd : ℚ → ℚ) (_ : Rounding rnd) (mn mx : Coord) (R C : Nat) (_ : Grid mn mx R C) (al al' : Alloc)
        (_ : al R (bytesPerRow C) = none) (_ : al' R (bytesPerRow C) = none) (mem mem' : Memory) (a a' : Nat)
        (_ : mem.layouts a = w.data) (_ : mem.elements = w.heap)
        (_ : mem'.layouts a' = w'.data) (_ : mem'.elements = w'.heap) (k k' depth depth' : Nat) (ns : List Int)
        (_ : ∀ q ∈ rs ++ rs', q.2 ∈ ns → Client.Meets mn mx q.1 → Client.StartsInside mn mx R C q.1 ∨ Client.Covers mn mx q.1)
        (_ : ∀ n ∈ ns, ∀ p : Int × Int × Int × Int,
          (∃ q ∈ rs, q.2 = n ∧ Client.Meets mn mx q.1 ∧ (q.1.x, q.1.y, q.1.w, q.1.h) = p) ↔
          (∃ q ∈ rs', q.2 = n ∧ Client.Meets mn mx q.1 ∧ (q.1.x, q.1.y, q.1.w, q.1.h) = p)),
        ∃ g g' ms g1 g1', Generator.init (some a) [0] mn mx (Generator.new rnd) = .ok () g ∧
          Generator.init (some a') [0] mn mx (Generator.new rnd) = .ok () g' ∧
          Verif.Client.renderLayers rnd al (.ok k) mem depth R C ns g = some (.ok ms g1) ∧
          Verif.Client.renderLayers rnd al' (.ok k') mem' depth' R C ns g' = some (.ok ms g1') ∧ ms.length = ns.length := by
  obtain ⟨w, e, hL, hg, _, hoth⟩ := read_plain hp addr heap
  obtain ⟨w', e', hL', hg', _, hoth'⟩ := read_plain hp' addr' heap'
  refine ⟨w, w', e, e', fun rnd hr mn mx R C hgr al al' hal hal' mem mem' a a' ha he ha' he' k k' depth depth' ns hd hset => ?_⟩
  have wp := hgr.wpos
  have hpw := hgr.hpos
  obtain ⟨g, hi⟩ := (C40_first_init rnd [] (Generator.new rnd) .start (by simp) a [0] (by simp) mn mx).1 ⟨by omega, by omega⟩
  obtain ⟨g', hi'⟩ := (C40_first_init rnd [] (Generator.new rnd) .start (by simp) a' [0] (by simp) mn mx).1 ⟨by omega, by omega⟩
  have hh := (History.start (rnd := rnd)).call (.initRet hi)
  have hh' := (History.start (rnd := rnd)).call (.initRet hi')
  obtain ⟨ms, g1, g1', r1, r2, hl⟩ := render_two (ls := [0]) (ls' := [0]) hr hgr hal hal' (by rw [ha]; exact hL) (by rw [ha']; exact hL')
    (by rw [he]; exact heap_fits hheap hg hoth) (by rw [he']; exact heap_fits hheap' hg' hoth') hp.sizes hp.fits hp'.sizes hp'.fits
    k k' depth depth' ns _ _ g g' hh hh' (by simp) (by simp)
    (fun q hq => hd q (List.mem_append_left _ hq)) (fun q hq => hd q (List.mem_append_right _ hq))
    (fun q hq hn hme => by
      obtain ⟨q', h1, h2, -, h4⟩ := (hset q.2 hn (place q.1)).1 ⟨q, hq, rfl, hme, rfl⟩
      exact ⟨q', h1, h2, h4⟩)
    (fun q hq hn hme => by
      obtain ⟨q', h1, h2, -, h4⟩ := (hset q.2 hn (place q.1)).2 ⟨q, hq, rfl, hme, rfl⟩
      exact ⟨q', h1, h2, h4⟩)
  exact ⟨g, g', ms, g1, g1', hi, hi', r1, r2, hl⟩

/-! ### the hypotheses can be met -/

/-- the file of C62 in another order, with its first rectangle twice and one more far outside the window -/
def exRects3 : List (Msk.Rect × Int) :=
  [(⟨0, 0, 10, 10, "NW"⟩, 1), (⟨20, 60, 25, 20, "ME"⟩, 23), (⟨500, 500, 7, 7, "ME"⟩, 23), (⟨20, 60, 25, 20, "ME"⟩, 23)]

theorem exRects3_plain : PlainFile (exEnv (Msk.fileText [10] (Msk.bytes "VERSION 1") (exRects3.map Prod.fst))) exName { fileName := exName } false
    (Msk.bytes "VERSION 1") exRects3 where
  reader := by
    have e : Msk.narrow exName = lit "d/x.msk" := by decide +kernel
    refine (C50_get_reader _ _ _).mpr ⟨⟨ex_name, Msk.fileText [10] (Msk.bytes "VERSION 1") (exRects3.map Prod.fst), by simp [exEnv, e], ?_⟩, rfl⟩
    decide +kernel
  content := by
    have e : Msk.narrow exName = lit "d/x.msk" := by decide +kernel
    simp [exEnv, e]
  names := ⟨⟨_, rfl⟩, _, rfl⟩
  line := by decide +kernel
  noBB := by decide +kernel
  noREC := by decide +kernel
  noTITLE := by decide +kernel
  layers := by
    simp only [exRects3, List.mem_cons, List.not_mem_nil, or_false, forall_eq_or_imp, forall_eq]
    exact ⟨.nw, .me, .me, .me⟩
  fits := by
    simp only [exRects3, List.mem_cons, List.not_mem_nil, or_false, forall_eq_or_imp, forall_eq]
    unfold RectFits inI32; decide
  sizes := by
    simp only [exRects3, List.mem_cons, List.not_mem_nil, or_false, forall_eq_or_imp, forall_eq]
    decide
  some_rect := by simp [exRects3]

example : ∃ w w', Msk.read (exEnv (Msk.fileText [10] (Msk.bytes "VERSION 1") (exRects.map Prod.fst))) 7 false
      ⟨{ fileName := exName }, {}, fun _ => {}⟩ = .ok true w ∧
    Msk.read (exEnv (Msk.fileText [10] (Msk.bytes "VERSION 1") (exRects3.map Prod.fst))) 7 false
      ⟨{ fileName := exName }, {}, fun _ => {}⟩ = .ok true w' ∧
    ∃ g g' ms g1 g1', Verif.Client.renderLayers rne Alloc.ok (.ok 0) ⟨fun _ => w.data, w.heap⟩ 0 10 10 [23, 1] g = some (.ok ms g1) ∧
      Verif.Client.renderLayers rne Alloc.ok (.ok 0) ⟨fun _ => w'.data, w'.heap⟩ 0 10 10 [23, 1] g' = some (.ok ms g1') ∧ ms.length = 2 := by
  obtain ⟨w, w', e, e', h⟩ := C88_files _ _ _ _ _ _ _ _ _ _ _ _ ex_plain exRects3_plain 7 7 (fun _ => {}) (fun _ => {}) (by simp) (by simp)
  obtain ⟨g, g', ms, g1, g1', -, -, r1, r2, hl⟩ := h rne rne_rounding ⟨0, 0⟩ ⟨100, 100⟩ 10 10
    ⟨by unfold inI32; decide, by unfold inI32; decide, by unfold inI32; decide, by decide, by decide, by decide, by decide, by decide, by decide⟩
    Alloc.ok Alloc.ok rfl rfl ⟨fun _ => w.data, w.heap⟩ ⟨fun _ => w'.data, w'.heap⟩ 0 0 rfl rfl rfl rfl 0 0 0 0 [23, 1] (by
      intro q hq _ hme
      simp only [exRects, exRects3, List.cons_append, List.nil_append, List.mem_cons, List.not_mem_nil, or_false] at hq
      rcases hq with rfl | rfl | rfl | rfl | rfl | rfl
      case inr.inr.inr.inr.inl => obtain ⟨h, -⟩ := hme; exact absurd h (by decide)
      all_goals exact .inl ⟨by decide, by decide, by unfold inI32; decide, by unfold inI32; decide, by decide, by decide⟩) (by
      intro n hn p
      simp only [exRects, exRects3, List.mem_cons, List.not_mem_nil, or_false] at hn ⊢
      constructor
      · rintro ⟨q, rfl | rfl, h1, h2, h3⟩
        · exact ⟨_, .inr (.inl rfl), h1, h2, h3⟩
        · exact ⟨_, .inl rfl, h1, h2, h3⟩
      · rintro ⟨q, rfl | rfl | rfl | rfl, h1, h2, h3⟩
        · exact ⟨_, .inr rfl, h1, h2, h3⟩
        · exact ⟨_, .inl rfl, h1, h2, h3⟩
        · obtain ⟨h, -⟩ := h2; exact absurd h (by decide)
        · exact ⟨_, .inl rfl, h1, h2, h3⟩)
  exact ⟨w, w', e, e', g, g', ms, g1, g1', r1, r2, hl⟩

end Verif.Props
