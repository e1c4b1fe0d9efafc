import Verif.Proofs.CollectMemory
import Verif.Props.Generator

/-!
C104: running out of memory while `Process` collects the geometries to draw.

`n` is the number of operations of the collection that take memory and succeed; the next one throws `bad_alloc`.
-/

namespace Verif.Props
open Verif BitMatrix Zond Spec Ieee Generator

/-- a generator constructed and then used by the given calls (oldest first), in which any `Process` may have run out
of memory while collecting -/
inductive HistoryMem (rnd : ℚ → ℚ) : List (GenCall × Bool) → Generator → Prop
  | start : HistoryMem rnd [] (Generator.new rnd)
  | call {h g c ret g'} : HistoryMem rnd h g → Step rnd c ret g g' → HistoryMem rnd (h ++ [(c, ret)]) g'
  | short {h g g' al stale mem depth R C n e} : HistoryMem rnd h g →
      Generator.processMem rnd al stale mem depth R C n g = some (.throw e g') →
      HistoryMem rnd (h ++ [(.process R C, false)]) g'

/-- As `Ready`, after a history in which memory may have run out. -/
structure ReadyMem (rnd : ℚ → ℚ) (g : Generator) (a : Nat) (mn mx : Coord) (req : List Int) (al : Alloc) (R C : Nat) :
    Prop where
  round : Rounding rnd
  hist : ∃ h ls, HistoryMem rnd h g ∧ (GenCall.init (some a) ls mn mx, true) ∈ h ∧ lastLayers h = some req
  rpos : 0 < R
  cpos : 0 < C
  rmax : R < 4294967296
  cmax : C < 4294967296
  alloc : al R (bytesPerRow C) = none
  width : inI32 (mx.x - mn.x)
  height : inI32 (mn.y - mx.y)

theorem historyMem_inv {rnd : ℚ → ℚ} {h : List (GenCall × Bool)} {g : Generator} (hh : HistoryMem rnd h g) :
    HistInv rnd h g := by
  induction hh with
  | start => exact ⟨rfl, fun _ => ⟨rfl, rfl, rfl⟩, by simp, fun _ => rfl, by simp⟩
  | call _ hs ih => exact hist_step ih hs
  | @short h g g' al stale mem depth R C n e _ hs ih =>
    obtain ⟨f1, f2, f3, f4, f5⟩ := processMem_throw_frame hs
    refine ⟨f5.trans ih.eps, fun hn => ?_, ?_, fun hn => ?_, fun d ls mn mx hm => ?_⟩
    · obtain ⟨i1, i2, i3⟩ := ih.fresh fun x hx => hn x (List.mem_append_left _ hx)
      refine ⟨?_, f2.trans i2, f3.trans i3⟩
      rcases f1 with f1 | f1 <;> rw [f1]
      · exact i1
      · rw [opNot_fragsSetMatrix]; exact i1
    · rintro ⟨x, hx, hp⟩
      rcases List.mem_append.mp hx with hx | hx
      · rcases f1 with f1 | f1 <;> rw [f1, ih.used ⟨x, hx, hp⟩]; rfl
      · simp at hx; subst hx; exact absurd hp (by simp [GenCall.properInit])
    · exact f2.trans (ih.failed fun d ls mn mx hm => hn d ls mn mx (List.mem_append_left _ hm))
    · rcases List.mem_append.mp hm with hm | hm
      · obtain ⟨a1, a2, a3, a4, a5, a6, a7⟩ := ih.inited d ls mn mx hm
        exact ⟨f2.trans a1, a2, a3, f3.trans a4, a5, a6, by rw [lastLayers_append, f4]; exact a7⟩
      · simp at hm

theorem readyMem_obs {rnd : ℚ → ℚ} {g : Generator} {a : Nat} {mn mx : Coord} {req : List Int} {al : Alloc} {R C : Nat}
    (hr : ReadyMem rnd g a mn mx req al R C) (k : Nat) (mem : Memory) (depth : Nat) :
    (Generator.process rnd al (.ok k) mem depth R C g).map (Out.mapS Generator.bitmap) =
      drawOut rnd (genRaster rnd mn mx R C) mem.elements depth req (mem.layouts a).libraries R C := by
  obtain ⟨h, ls, hh, hm, hl⟩ := hr.hist
  have inv := historyMem_inv hh
  obtain ⟨h1, h2, h3, h4, h5, h6, h7⟩ := inv.inited _ _ _ _ hm
  have hf := inv.used ⟨_, hm, h2, h3⟩
  rw [hl] at h7; injection h7 with h7
  rw [process_obs hr.round mem depth h1 hf hr.rpos hr.cpos hr.rmax hr.cmax hr.alloc
    (by rw [h4]; exact ⟨hr.width, hr.height⟩) (by rw [h4]; exact ⟨h5, h6⟩), h4, inv.eps, ← h7]
  rfl

/-- A history in which memory never ran out is one in which it may have. -/
theorem HistoryMem.of_history {rnd : ℚ → ℚ} {h : List (GenCall × Bool)} {g : Generator} (hh : History rnd h g) :
    HistoryMem rnd h g := by
  induction hh with
  | start => exact .start
  | call _ hs ih => exact ih.call hs

theorem ReadyMem.of_ready {rnd : ℚ → ℚ} {g : Generator} {a : Nat} {mn mx : Coord} {req : List Int} {al : Alloc} {R C : Nat}
    (hr : Ready rnd g a mn mx req al R C) : ReadyMem rnd g a mn mx req al R C := by
  obtain ⟨h, ls, hh, hm, hl⟩ := hr.hist
  exact ⟨hr.round, ⟨h, ls, .of_history hh, hm, hl⟩, hr.rpos, hr.cpos, hr.rmax, hr.cmax, hr.alloc, hr.width, hr.height⟩

/-- **C104** With any amount of memory for the collection `Process` does one of two things: it throws `bad_alloc` and
leaves a dark bitmap of the requested size (the previous one is gone), or it ends exactly as a call with enough memory:
the same text, bitmap or exception, whatever ran out of memory before. -/
theorem C104_dark_or_alike (rnd : ℚ → ℚ) (g g0 : Generator) (a : Nat) (mn mx : Coord) (req : List Int) (al al0 : Alloc)
    (R C : Nat) (hr : ReadyMem rnd g a mn mx req al R C) (h0 : Ready rnd g0 a mn mx req al0 R C) (k k0 : Nat)
    (mem : Memory) (depth n : Nat) :
    (∃ g', Generator.processMem rnd al (.ok k) mem depth R C n g = some (.throw .badAlloc g') ∧ Built (getMatrix g') ∧
      (getMatrix g').isize = R ∧ (getMatrix g').jsize = C ∧ ∀ i j, ¬ Lit (getMatrix g') i j) ∨
    (Generator.processMem rnd al (.ok k) mem depth R C n g).map (Out.mapS getMatrix) =
      (Generator.process rnd al0 (.ok k0) mem depth R C g0).map (Out.mapS getMatrix) := by
  rcases processMem_alike rnd al (.ok k) mem depth R C n g with ⟨g', h, hz⟩ | h
  · left
    have hb := hz hr.rpos.ne' hr.cpos.ne'
    rw [resize_ok hr.rpos hr.cpos hr.alloc] at hb
    injection hb with _ hb
    refine ⟨g', h, ?_⟩
    unfold getMatrix
    rw [← hb]
    exact ⟨built_blank hr.rmax hr.cmax, rfl, rfl, fun i j => blank_dark⟩
  · right
    have e : (getMatrix : Generator → BitMatrix) = Generator.bitmap := rfl
    rw [e, h, readyMem_obs hr, ready_obs h0]

/-- **C104** Running out of memory breaks nothing: the generator stays ready for the same layout, window and layers at
every size, and further `Process` calls give what a generator that never ran out gives. -/
theorem C104_retry (rnd : ℚ → ℚ) (g g' g0 : Generator) (a : Nat) (mn mx : Coord) (req : List Int) (al al0 : Alloc)
    (R C : Nat) (hr : ReadyMem rnd g a mn mx req al R C) (al' : Alloc) (stale : Res Nat) (mem' : Memory) (depth' R' C' n : Nat)
    (e : Exc) (hs : Generator.processMem rnd al' stale mem' depth' R' C' n g = some (.throw e g'))
    (h0 : Ready rnd g0 a mn mx req al0 R C) (k k0 : Nat) (mem : Memory) (depth : Nat) :
    ReadyMem rnd g' a mn mx req al R C ∧
    (Generator.process rnd al (.ok k) mem depth R C g').map (Out.mapS getMatrix) =
      (Generator.process rnd al0 (.ok k0) mem depth R C g0).map (Out.mapS getMatrix) := by
  have hr' : ReadyMem rnd g' a mn mx req al R C := by
    obtain ⟨h, ls, hh, hm, hl⟩ := hr.hist
    refine ⟨hr.round, ⟨_, ls, hh.short hs, List.mem_append_left _ hm, ?_⟩, hr.rpos, hr.cpos, hr.rmax, hr.cmax, hr.alloc,
      hr.width, hr.height⟩
    rw [lastLayers_append]; exact hl
  refine ⟨hr', ?_⟩
  have e : (getMatrix : Generator → BitMatrix) = Generator.bitmap := rfl
  rw [e, readyMem_obs hr', ready_obs h0]

/-- **C104** Enough memory is a finite amount: for every call there is a budget from which on the outcome no longer
depends on it — in every state, ready or not. -/
theorem C104_enough (rnd : ℚ → ℚ) (al : Alloc) (stale : Res Nat) (mem : Memory) (depth R C : Nat) (g : Generator) :
    ∃ k, ∀ n, k ≤ n → (Generator.processMem rnd al stale mem depth R C n g).map (Out.mapS getMatrix) =
      (Generator.process rnd al stale mem depth R C g).map (Out.mapS getMatrix) :=
  processMem_enough rnd al stale mem depth R C g

/-- **C104** A call that returns within some budget returns with every larger one and with enough memory, and with the
same result. -/
theorem C104_returns (rnd : ℚ → ℚ) (al : Alloc) (stale : Res Nat) (mem : Memory) (depth R C n : Nat) (g g' : Generator)
    (r : Bool × List UInt8) (h : Generator.processMem rnd al stale mem depth R C n g = some (.ok r g')) :
    (∀ m, n ≤ m → Generator.processMem rnd al stale mem depth R C m g = some (.ok r g')) ∧
    Generator.process rnd al stale mem depth R C g = some (.ok r g') := by
  refine ⟨fun m hm => ?_, processMem_returns h⟩
  obtain ⟨d, rfl⟩ := Nat.exists_eq_add_of_le hm
  exact processMem_mono h d

/-- **C104** Exactly how much is needed for a layout of rectangles and polygons in one layer: one operation for each of
them that touches the window. -/
theorem C104_need (rnd : ℚ → ℚ) (g : Generator) (a : Nat) (mn mx : Coord) (req : List Int) (al : Alloc) (R C : Nat)
    (hr : ReadyMem rnd g a mn mx req al R C) (k : Nat) (mem : Memory) (depth n : Nat) (number : Int) (ps touching rest : List Geometry)
    (hL : mem.layouts a = { libraries := [some { layers := [{ layer := number, geometries := ps.map some }] }] })
    (hn : number ∈ req) (hps : ∀ p ∈ ps, p.type = .rectangle ∨ p.type = .polygon)
    (hsplit : ps.Perm (touching ++ rest)) (ht : ∀ p ∈ touching, Touches (wsOf mn mx) p)
    (hrest : ∀ p ∈ rest, ¬ Touches (wsOf mn mx) p) :
    (n < touching.length → ∃ g', Generator.processMem rnd al (.ok k) mem depth R C n g = some (.throw .badAlloc g')) ∧
    (touching.length ≤ n → Generator.processMem rnd al (.ok k) mem depth R C n g =
      Generator.process rnd al (.ok k) mem depth R C g) := by
  have hcount : (ps.filter (boxMeets (wsOf mn mx))).length = touching.length := by
    rw [(hsplit.filter _).length_eq, List.filter_append, List.filter_eq_self.mpr fun p hp => (boxMeets_iff _ p).mpr (ht p hp),
      List.filter_eq_nil_iff.mpr fun p hp h => hrest p hp ((boxMeets_iff _ p).mp h)]
    simp
  obtain ⟨h, ls, hh, hm, hl⟩ := hr.hist
  have inv := historyMem_inv hh
  obtain ⟨h1, h2, h3, h4, h5, h6, h7⟩ := inv.inited _ _ _ _ hm
  have hf := inv.used ⟨_, hm, h2, h3⟩
  rw [hl] at h7; injection h7 with h7
  obtain ⟨p1, p2⟩ := processMem_of_libs hr.round (k := k) mem depth n h1 hf hr.rpos hr.cpos hr.rmax hr.cmax hr.alloc
    (by rw [h4]; exact ⟨hr.width, hr.height⟩) (by rw [h4]; exact ⟨h5, h6⟩)
  have hws : g.ws = wsOf mn mx := h4
  have hc := collectList_direct mem.elements depth (wsOf mn mx) ps n ([], []) hps
  rw [hcount] at hc
  constructor
  · intro hlt
    rw [if_neg (by omega)] at hc
    obtain ⟨c', hc⟩ := hc
    refine p1 _ c' ?_
    simp only [hL, collectLibs, collectLayers, ← h7, if_pos hn, hws, hc, Collect.bind]
  · intro hle
    rw [if_pos hle] at hc
    obtain ⟨m, c', hc⟩ := hc
    refine p2 m c' ?_
    simp only [hL, collectLibs, collectLayers, ← h7, if_pos hn, hws, hc, Collect.bind]

/-- **C104** The life cycle is untouched: after an `Init` with a layout and a layer every further `Init` is refused,
also when a `Process` in between ran out of memory. -/
theorem C104_init_once (rnd : ℚ → ℚ) (h : List (GenCall × Bool)) (g : Generator) (hh : HistoryMem rnd h g)
    (hsecond : ∃ c ∈ h, c.1.properInit) (d : Option Nat) (ls : List Int) (mn mx : Coord) :
    Generator.init d ls mn mx g = .throw .invalidArgument g := by
  have hf := (historyMem_inv hh).used hsecond
  unfold Generator.init
  rw [if_pos]
  simp [hf, V2.opNot, V2.checkParameters]

end Verif.Props
