import Verif.Model.Fragment
import Verif.Proofs.Ieee
import Mathlib.Tactic.Linarith

/-!
C54: the class `Fragment`.
-/

namespace Verif.Props
open Verif Ieee

/-- the calls a program can make on a `Fragment` -/
inductive FragCall where
  | setMatrix (m : Option Nat)
  | setWorkspace (ws : Workspace)
  | setIndicies (iBegin jBegin iEnd jEnd : Nat)
  | pushRaw (g : Option Geometry)
  | pushShared (g : Option Geometry)
  | process
  | reset

/-- one call; exceptions are caught by the caller; `none` is undefined behaviour -/
def FragCall.run (rnd : ℚ → ℚ) (f : Fragment) : FragCall → Option Fragment
  | .setMatrix m => match Fragment.setMatrix m f with
    | .ok _ f => some f
    | .throw _ f => some f
    | .ub => none
  | .setWorkspace ws => some (f.setWorkspaceCoords ws)
  | .setIndicies a b c d => some (f.setIndicies a b c d)
  | .pushRaw g => some (f.pushLegacy g)
  | .pushShared g => some (f.pushItem g)
  | .process => match Fragment.process rnd f with
    | .ok _ f => some f
    | .throw _ f => some f
    | .ub => none
  | .reset => some f.reset

/-- a new fragment after the given calls, oldest first -/
def fragAfter (rnd : ℚ → ℚ) (h : List FragCall) : Option Fragment := h.foldlM (FragCall.run rnd) {}

/-! What a history amounts to (a list of calls, oldest first). -/

/-- the calls after the last `Reset` -/
def sinceReset (h : List FragCall) : List FragCall :=
  h.foldl (fun acc c => match c with
    | .reset => []
    | c => acc ++ [c]) []

/-- the last value of a kind -/
def lastOf {α : Type} (sel : FragCall → Option α) (h : List FragCall) : Option α := (h.filterMap sel).getLast?

def selMatrix : FragCall → Option Nat
  | .setMatrix m => m
  | _ => none
def selWs : FragCall → Option Workspace
  | .setWorkspace ws => some ws
  | _ => none
def selBound : FragCall → Option Indicies
  | .setIndicies iBegin jBegin iEnd jEnd => some { iBegin := iBegin, iEnd := iEnd, jBegin := jBegin, jEnd := jEnd }
  | _ => none
def selRaw : FragCall → Option (Option Geometry)
  | .pushRaw g => some g
  | _ => none
def selShared : FragCall → Option (Option Geometry)
  | .pushShared g => some g
  | _ => none

/-- what a history leaves in a fragment -/
structure FragState (h : List FragCall) (f : Fragment) : Prop where
  matrix : f.matrix = lastOf selMatrix (sinceReset h)
  angle : f.angle = (lastOf selWs (sinceReset h)).getD ⟨⟨0, 0⟩, ⟨0, 0⟩⟩
  shared : f.items = (sinceReset h).filterMap selShared
  raw : f.legacy = h.filterMap selRaw
  bound : f.bound = (lastOf selBound h).getD {}
  zondWs : f.zond.ws = (lastOf selWs h).getD ⟨⟨0, 0⟩, ⟨0, 0⟩⟩
  zondBound : f.zond.bound = (lastOf selBound h).getD {}

theorem sinceReset_append (h : List FragCall) (c : FragCall) (hc : c ≠ .reset) : sinceReset (h ++ [c]) = sinceReset h ++ [c] := by
  unfold sinceReset
  rw [List.foldl_append]
  cases c <;> first | exact absurd rfl hc | rfl

theorem lastOf_append {α : Type} (sel : FragCall → Option α) (h : List FragCall) (c : FragCall) :
    lastOf sel (h ++ [c]) = (sel c).or (lastOf sel h) := by
  unfold lastOf
  rw [List.filterMap_append]
  cases hc : sel c with
  | none => simp [hc]
  | some v => simp [hc]

/-- what `Process` does to the fields of the specification -/
theorem process_frame {rnd : ℚ → ℚ} {f f' : Fragment} (h : FragCall.run rnd f .process = some f') :
    f'.matrix = f.matrix ∧ f'.angle = f.angle ∧ f'.items = f.items ∧ f'.legacy = f.legacy ∧ f'.bound = f.bound ∧
      f'.zond.ws = f.zond.ws ∧ f'.zond.bound = f.zond.bound := by
  unfold FragCall.run Fragment.process at h
  dsimp only at h
  cases hm : f.matrix with
  | none => rw [hm] at h; dsimp only at h; cases h; exact ⟨hm, rfl, rfl, rfl, rfl, rfl, rfl⟩
  | some a =>
    rw [hm] at h
    dsimp only at h
    cases h1 : calcDelta rnd f.angle.leftTop.x f.angle.rightBot.x (Zond.addSz (subSz f.bound.jEnd f.bound.jBegin) 1) with
    | ub => rw [h1] at h; cases h
    | throw e => rw [h1] at h; cases h; exact ⟨hm, rfl, rfl, rfl, rfl, rfl, rfl⟩
    | ok dx =>
      rw [h1] at h
      dsimp only at h
      cases h2 : calcDelta rnd f.angle.leftTop.y f.angle.rightBot.y (Zond.addSz (subSz f.bound.iEnd f.bound.iBegin) 1) with
      | ub => rw [h2] at h; cases h
      | throw e => rw [h2] at h; cases h; exact ⟨rfl, rfl, rfl, rfl, rfl, rfl, rfl⟩
      | ok dy =>
        rw [h2] at h
        dsimp only at h
        unfold Zond.setDeltas at h
        cases hc : (dy.lt (.fin 0) || dx.lt (.fin 0)) with
        | true => rw [hc] at h; cases h; exact ⟨rfl, rfl, rfl, rfl, rfl, rfl, rfl⟩
        | false => rw [hc] at h; cases h; exact ⟨rfl, rfl, rfl, rfl, rfl, rfl, rfl⟩

/-- **C54** Every history of calls that stays defined leaves the fragment in the state the history says: `Reset` takes back
the matrix, the workspace and the shared geometries, but not the geometries pushed by raw pointer, the index bounds, or the
workspace and bounds of the rasteriser inside. -/
theorem C54_history (rnd : ℚ → ℚ) (h : List FragCall) (f : Fragment) (hf : fragAfter rnd h = some f) : FragState h f := by
  induction h using List.reverseRecOn generalizing f with
  | nil =>
    cases hf
    exact ⟨rfl, rfl, rfl, rfl, rfl, rfl, rfl⟩
  | append_singleton h c ih =>
    unfold fragAfter at hf
    rw [List.foldlM_append] at hf
    cases hg : h.foldlM (FragCall.run rnd) {} with
    | none => rw [hg] at hf; cases hf
    | some g =>
      rw [hg] at hf
      have hc : FragCall.run rnd g c = some f := by
        cases hr : FragCall.run rnd g c with
        | none => simp [hr] at hf
        | some x => simpa [hr] using hf
      obtain ⟨i1, i2, i3, i4, i5, i6, i7⟩ := ih g hg
      cases c with
      | setMatrix m =>
        cases m with
        | none =>
          cases hc
          refine ⟨?_, ?_, ?_, ?_, ?_, ?_, ?_⟩ <;>
            simp [sinceReset_append, lastOf_append, selMatrix, selWs, selBound, selRaw, selShared, i1, i2, i3, i4, i5, i6, i7]
        | some a =>
          cases hc
          refine ⟨?_, ?_, ?_, ?_, ?_, ?_, ?_⟩ <;>
            simp [sinceReset_append, lastOf_append, selMatrix, selWs, selBound, selRaw, selShared, i2, i3, i4, i5, i6, i7]
      | setWorkspace ws =>
        cases hc
        refine ⟨?_, ?_, ?_, ?_, ?_, ?_, ?_⟩ <;>
          simp [sinceReset_append, lastOf_append, selMatrix, selWs, selBound, selRaw, selShared, Fragment.setWorkspaceCoords, i1, i3, i4, i5, i7]
      | setIndicies a b c d =>
        cases hc
        refine ⟨?_, ?_, ?_, ?_, ?_, ?_, ?_⟩ <;>
          simp [sinceReset_append, lastOf_append, selMatrix, selWs, selBound, selRaw, selShared, Fragment.setIndicies, i1, i2, i3, i4, i6]
      | pushRaw x =>
        cases hc
        refine ⟨?_, ?_, ?_, ?_, ?_, ?_, ?_⟩ <;>
          simp [sinceReset_append, lastOf_append, selMatrix, selWs, selBound, selRaw, selShared, Fragment.pushLegacy, i1, i2, i3, i4, i5, i6, i7]
      | pushShared x =>
        cases hc
        refine ⟨?_, ?_, ?_, ?_, ?_, ?_, ?_⟩ <;>
          simp [sinceReset_append, lastOf_append, selMatrix, selWs, selBound, selRaw, selShared, Fragment.pushItem, i1, i2, i3, i4, i5, i6, i7]
      | process =>
        obtain ⟨k1, k2, k3, k4, k5, k6, k7⟩ := process_frame hc
        refine ⟨?_, ?_, ?_, ?_, ?_, ?_, ?_⟩ <;>
          simp [sinceReset_append, lastOf_append, selMatrix, selWs, selBound, selRaw, selShared, k1, k2, k3, k4, k5, k6, k7, i1, i2, i3, i4, i5, i6, i7]
      | reset =>
        cases hc
        have hs : sinceReset (h ++ [.reset]) = [] := by unfold sinceReset; rw [List.foldl_append]; rfl
        refine ⟨?_, ?_, ?_, ?_, ?_, ?_, ?_⟩ <;>
          simp [hs, selMatrix, selWs, selBound, selRaw, Fragment.reset, lastOf, i4, i5, i6, i7, Workspace.setAngleCoords]

/-- **C54** `SetMatrix` refuses a null pointer and keeps the matrix it has. -/
theorem C54_set_matrix_null (f : Fragment) : Fragment.setMatrix none f = .throw .invalidArgument f := rfl

/-- the size of a cell: `d` split into `n` parts (`n` taken modulo 2^32), rounded; a split into no parts gives an infinity, or NaN for no
distance -/
def cellSize (rnd : ℚ → ℚ) (d : Int) (n : Nat) : Fl :=
  if n % 2 ^ 32 = 0 then (if d = 0 then .nan else .pinf) else .fin (rnd (|(d : ℚ)| / ((n % 2 ^ 32 : Nat) : ℚ)))

theorem calcDelta_eq {rnd : ℚ → ℚ} (hr : Rounding rnd) (a b : Int) (n : Nat) (hd : inI32 (b - a)) :
    calcDelta rnd a b n = .ok (cellSize rnd (b - a) n) := by
  unfold calcDelta sub32 chk32
  rw [if_pos hd, Res.ok_bind]
  refine congrArg Res.ok ?_
  generalize b - a = d at hd
  have habs : (if d < 0 then -d else d) = |d| := by
    split
    · rw [abs_of_neg ‹_›]
    · rw [abs_of_nonneg (by omega)]
  have hex : ∀ k : Int, |k| ≤ 2 ^ 53 → rnd (k : ℚ) = k := by
    intro k hk
    have := hr.exact k 0 hk
    simpa using this
  have hdb : |d| ≤ 2 ^ 53 := by
    unfold inI32 at hd
    rw [abs_le]; constructor <;> omega
  have hnb : |((n % 4294967296 : Nat) : Int)| ≤ 2 ^ 53 := by
    rw [abs_of_nonneg (by omega)]; omega
  unfold Fl.ofInt cellSize
  rw [habs, hex |d| (by rw [abs_abs]; exact hdb), hex _ hnb]
  have hp : (2 : Nat) ^ 32 = 4294967296 := by norm_num
  rw [hp]
  unfold Fl.div
  dsimp only
  by_cases hn : n % 4294967296 = 0
  · rw [if_pos hn, hn]
    have : (((0 : Nat) : Int) : ℚ) = 0 := by norm_num
    rw [if_pos this]
    unfold Fl.infOf
    by_cases h0 : d = 0
    · rw [if_pos h0, h0]; norm_num
    · rw [if_neg h0, if_pos]
      have : 0 < |d| := abs_pos.2 h0
      exact_mod_cast this
  · rw [if_neg hn, if_neg (by exact_mod_cast hn)]
    push_cast
    rfl

theorem cellSize_not_neg {rnd : ℚ → ℚ} (hr : Rounding rnd) (d : Int) (n : Nat) : (cellSize rnd d n).lt (.fin 0) = false := by
  unfold cellSize
  split
  · split <;> rfl
  · unfold Fl.lt
    dsimp only
    rw [decide_eq_false_iff_not, not_lt]
    have h0 : rnd 0 = 0 := by simpa using hr.exact 0 0 (by norm_num)
    rw [← h0]
    exact hr.mono _ _ (by positivity)

/-- columns and rows between two indices, wrapping like `size_t` -/
def span (b e : Nat) : Nat := (e + 2 ^ 64 - b + 1) % 2 ^ 64

theorem addSz_subSz (b e : Nat) (hb : b < 2 ^ 64) (he : e < 2 ^ 64) : Zond.addSz (subSz e b) 1 = span b e := by
  have h64 : (2 : Nat) ^ 64 = 18446744073709551616 := by norm_num
  have hsub : subSz e b = if b ≤ e then e - b else 18446744073709551616 - (b - e) := by
    split
    · exact subSz_eq e b ‹_› he
    · rw [subSz_wrap e b (by omega) (Nat.le_of_lt hb), h64]
  rw [hsub]
  unfold Zond.addSz span
  rw [h64] at *
  split <;> omega

theorem process_eq {rnd : ℚ → ℚ} {f : Fragment} {a : Nat} {dx dy : Fl} (ha : f.matrix = some a)
    (hX : calcDelta rnd f.angle.leftTop.x f.angle.rightBot.x (Zond.addSz (subSz f.bound.jEnd f.bound.jBegin) 1) = .ok dx)
    (hY : calcDelta rnd f.angle.leftTop.y f.angle.rightBot.y (Zond.addSz (subSz f.bound.iEnd f.bound.iBegin) 1) = .ok dy)
    (nX : dx.lt (.fin 0) = false) (nY : dy.lt (.fin 0) = false) :
    Fragment.process rnd f = .ok () { f with dx := dx, dy := dy, zond := { f.zond with dx := dx, dy := dy } } := by
  unfold Fragment.process
  rw [ha]
  dsimp only
  rw [hX]
  dsimp only
  rw [hY]
  dsimp only
  unfold Zond.setDeltas
  rw [nX, nY]
  simp only [Bool.or_false, Bool.false_eq_true, if_false]

attribute [local irreducible] cellSize span

/-- **C54** `Process` without a matrix throws `std::runtime_error` and changes nothing.  With a matrix it computes the two cell
sizes, hands them to the rasteriser, and draws nothing — no geometry and no other member changes; it is undefined exactly when
the extent of the workspace does not fit 32 bits.  (The matrix is reached through a pointer that `Process` does not follow.) -/
theorem C54_process {rnd : ℚ → ℚ} (hr : Rounding rnd) (f : Fragment)
    (hb : f.bound.iBegin < 2 ^ 64 ∧ f.bound.iEnd < 2 ^ 64 ∧ f.bound.jBegin < 2 ^ 64 ∧ f.bound.jEnd < 2 ^ 64) :
    (f.matrix = none → Fragment.process rnd f = .throw .runtimeError f) ∧
    (f.matrix ≠ none → inI32 (f.angle.rightBot.x - f.angle.leftTop.x) → inI32 (f.angle.rightBot.y - f.angle.leftTop.y) →
      let dx := cellSize rnd (f.angle.rightBot.x - f.angle.leftTop.x) (span f.bound.jBegin f.bound.jEnd)
      let dy := cellSize rnd (f.angle.rightBot.y - f.angle.leftTop.y) (span f.bound.iBegin f.bound.iEnd)
      Fragment.process rnd f = .ok () { f with dx := dx, dy := dy, zond := { f.zond with dx := dx, dy := dy } }) ∧
    (f.matrix ≠ none → ¬ (inI32 (f.angle.rightBot.x - f.angle.leftTop.x) ∧ inI32 (f.angle.rightBot.y - f.angle.leftTop.y)) →
      Fragment.process rnd f = .ub) := by
  refine ⟨fun h => ?_, fun h hx hy => ?_, fun h hxy => ?_⟩
  · unfold Fragment.process; rw [h]
  · obtain ⟨a, ha⟩ := Option.ne_none_iff_exists'.1 h
    intro dx dy
    have hX : calcDelta rnd f.angle.leftTop.x f.angle.rightBot.x (Zond.addSz (subSz f.bound.jEnd f.bound.jBegin) 1) = .ok dx := by
      rw [calcDelta_eq hr _ _ _ hx, addSz_subSz _ _ hb.2.2.1 hb.2.2.2]
    have hY : calcDelta rnd f.angle.leftTop.y f.angle.rightBot.y (Zond.addSz (subSz f.bound.iEnd f.bound.iBegin) 1) = .ok dy := by
      rw [calcDelta_eq hr _ _ _ hy, addSz_subSz _ _ hb.1 hb.2.1]
    exact process_eq ha hX hY (cellSize_not_neg hr _ _) (cellSize_not_neg hr _ _)
  · obtain ⟨a, ha⟩ := Option.ne_none_iff_exists'.1 h
    unfold Fragment.process
    rw [ha]
    dsimp only
    by_cases hx : inI32 (f.angle.rightBot.x - f.angle.leftTop.x)
    · rw [calcDelta_eq hr _ _ _ hx]
      dsimp only
      have hy : ¬ inI32 (f.angle.rightBot.y - f.angle.leftTop.y) := fun hy => hxy ⟨hx, hy⟩
      have : ∀ n, calcDelta rnd f.angle.leftTop.y f.angle.rightBot.y n = .ub := by
        intro n
        unfold calcDelta sub32 chk32
        rw [if_neg hy]
        rfl
      rw [this]
    · have : ∀ n, calcDelta rnd f.angle.leftTop.x f.angle.rightBot.x n = .ub := by
        intro n
        unfold calcDelta sub32 chk32
        rw [if_neg hx]
        rfl
      rw [this]

/-- **C54** Over a whole history: `Process` throws exactly when no matrix has been set since the last `Reset`. -/
theorem C54_process_throws {rnd : ℚ → ℚ} (hr : Rounding rnd) (h : List FragCall) (f : Fragment) (hf : fragAfter rnd h = some f)
    (hb : ∀ b ∈ h.filterMap selBound, b.iBegin < 2 ^ 64 ∧ b.iEnd < 2 ^ 64 ∧ b.jBegin < 2 ^ 64 ∧ b.jEnd < 2 ^ 64) :
    (∃ e f', Fragment.process rnd f = .throw e f') ↔ ∀ a, FragCall.setMatrix (some a) ∉ sinceReset h := by
  have hs := C54_history rnd h f hf
  have hbound : f.bound.iBegin < 2 ^ 64 ∧ f.bound.iEnd < 2 ^ 64 ∧ f.bound.jBegin < 2 ^ 64 ∧ f.bound.jEnd < 2 ^ 64 := by
    rw [hs.bound]
    unfold lastOf
    cases hl : (h.filterMap selBound).getLast? with
    | none => exact ⟨by norm_num, by norm_num, by norm_num, by norm_num⟩
    | some b => exact hb b (List.mem_of_getLast? hl)
  obtain ⟨p1, p2, p3⟩ := C54_process hr f hbound
  have key : f.matrix = none ↔ ∀ a, FragCall.setMatrix (some a) ∉ sinceReset h := by
    rw [hs.matrix]
    unfold lastOf
    rw [List.getLast?_eq_none_iff, List.filterMap_eq_nil_iff]
    constructor
    · intro hn a ha
      have := hn _ ha
      simp [selMatrix] at this
    · intro hn c hc
      cases c with
      | setMatrix m =>
        cases m with
        | none => rfl
        | some a => exact absurd hc (hn a)
      | _ => rfl
  rw [← key]
  constructor
  · rintro ⟨e, f', he⟩
    by_contra hm
    by_cases hxy : inI32 (f.angle.rightBot.x - f.angle.leftTop.x) ∧ inI32 (f.angle.rightBot.y - f.angle.leftTop.y)
    · have := p2 hm hxy.1 hxy.2
      rw [this] at he
      cases he
    · rw [p3 hm hxy] at he
      cases he
  · intro hm
    exact ⟨_, _, p1 hm⟩

/-- the point lies in the closed box -/
def InBox (lo hi p : Coord) : Prop := lo.x ≤ p.x ∧ p.x ≤ hi.x ∧ lo.y ≤ p.y ∧ p.y ≤ hi.y

/-- **C54** `GeometryWorkspaceIntersection` is false for a null pointer, and for a geometry with an ordered box and an ordered
workspace it is true exactly when the two closed boxes have a point in common. -/
theorem C54_intersection (f : Fragment) (g : Geometry) (hg : g.min.x ≤ g.max.x ∧ g.min.y ≤ g.max.y)
    (hw : f.angle.leftTop.x ≤ f.angle.rightBot.x ∧ f.angle.rightBot.y ≤ f.angle.leftTop.y) :
    f.geometryWorkspaceIntersection none = false ∧
    (f.geometryWorkspaceIntersection (some g) = true ↔
      ∃ p, InBox g.min g.max p ∧ InBox ⟨f.angle.leftTop.x, f.angle.rightBot.y⟩ ⟨f.angle.rightBot.x, f.angle.leftTop.y⟩ p) := by
  refine ⟨rfl, ?_⟩
  unfold Fragment.geometryWorkspaceIntersection boxMeets InBox
  dsimp only
  split
  · rename_i h
    simp only [Bool.false_eq_true, false_iff]
    rintro ⟨p, h1, h2⟩
    omega
  · rename_i h
    simp only [true_iff]
    refine ⟨⟨max g.min.x f.angle.leftTop.x, max g.min.y f.angle.rightBot.y⟩, ?_, ?_⟩ <;> dsimp only <;> omega

attribute [local irreducible] Fragment.process

/-- C54 at work: a matrix, a workspace of 10 × 20 over 4 columns and 5 rows, a raw geometry; `Process`, then `Reset`.  The cells
are 2.5 × 4; the reset fragment still holds the geometry and the bounds, and `Process` then throws. -/
example : ∃ f, fragAfter rne [.setMatrix (some 1), .setWorkspace ⟨⟨0, 20⟩, ⟨10, 0⟩⟩, .setIndicies 0 0 4 3,
      .pushRaw (some { type := .rectangle }), .process] = some f ∧ f.dx = .fin (5 / 2) ∧ f.zond.dy = .fin 4 ∧
    f.reset.legacy = [some { type := .rectangle }] ∧ f.reset.bound.jEnd = 3 ∧
    Fragment.process rne f.reset = .throw .runtimeError f.reset := by
  let z : Zond := { ws := ⟨⟨0, 20⟩, ⟨10, 0⟩⟩, bound := ⟨0, 4, 0, 3⟩ }
  let f0 : Fragment := { angle := ⟨⟨0, 20⟩, ⟨10, 0⟩⟩, bound := ⟨0, 4, 0, 3⟩, legacy := [some { type := .rectangle }], matrix := some 1, zond := z }
  have h0 : fragAfter rne [.setMatrix (some 1), .setWorkspace ⟨⟨0, 20⟩, ⟨10, 0⟩⟩, .setIndicies 0 0 4 3,
      .pushRaw (some { type := .rectangle }), .process] = FragCall.run rne f0 .process >>= some := rfl
  have hp := (C54_process rne_rounding f0 ⟨by norm_num [f0], by norm_num [f0], by norm_num [f0], by norm_num [f0]⟩).2.1
    (by simp [f0]) (by decide) (by decide)
  have ex : cellSize rne 10 (span 0 3) = .fin (5 / 2) := by
    have h := rne_rounding.exact 5 (-1) (by norm_num)
    unfold cellSize span
    norm_num at h ⊢
    exact h
  have ey : cellSize rne (-20) (span 0 4) = .fin 4 := by
    have h := rne_rounding.exact 4 0 (by norm_num)
    unfold cellSize span
    norm_num at h ⊢
    exact h
  have hx : f0.angle.rightBot.x - f0.angle.leftTop.x = 10 := rfl
  have hy : f0.angle.rightBot.y - f0.angle.leftTop.y = -20 := rfl
  have hbx : span f0.bound.jBegin f0.bound.jEnd = span 0 3 := rfl
  have hby : span f0.bound.iBegin f0.bound.iEnd = span 0 4 := rfl
  dsimp only at hp
  rw [hx, hy, hbx, hby, ex, ey] at hp
  refine ⟨{ f0 with dx := .fin (5 / 2), dy := .fin 4, zond := { z with dx := .fin (5 / 2), dy := .fin 4 } },
    ?_, rfl, rfl, rfl, rfl, (C54_process rne_rounding _ ⟨by norm_num [f0, Fragment.reset], by norm_num [f0, Fragment.reset],
      by norm_num [f0, Fragment.reset], by norm_num [f0, Fragment.reset]⟩).1 rfl⟩
  rw [h0]
  show (match Fragment.process rne f0 with
    | .ok _ f => some f
    | .throw _ f => some f
    | .ub => none) >>= some = _
  rw [hp]
  rfl

end Verif.Props
