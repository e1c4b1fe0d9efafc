import Verif.Proofs.LayoutConverter

/-!
# Properties C35, C36: conversion of paths and references (`GeometryConverter`)
-/

namespace Verif.Props
open Verif.Converter Verif.Spec

/-! ### C35 -/

/-- **C35** Whatever path is converted — any points, any width — the call either runs into undefined
behaviour or returns, for `n` points, `n - 1` copies of one and the same rectangle: zero size, at the origin,
on the path's layer.  The path's shape is lost. -/
theorem C35_result (p : Geometry) (ht : p.type = .path) (hl : p.coords.length < 2 ^ 64) (rs : List Geometry)
    (h : pathToRectList (some p) = .ok rs) :
    1 ≤ p.coords.length ∧ rs = List.replicate (p.coords.length - 1) (originRect p.layer) := by
  by_cases hc : p.coords = []
  · rw [pathToRectList_empty p ht hc] at h; cases h
  · refine ⟨List.length_pos_of_ne_nil hc, ?_⟩
    rcases pathToRectList_cases p ht hc hl with h' | h'
    · rw [h'] at h; injection h with h; exact h.symm
    · rw [h'] at h; cases h

/-- **C35** Points and width up to 2^30 in absolute value: the conversion succeeds. -/
theorem C35_succeeds (p : Geometry) (ht : p.type = .path) (hl : p.coords.length < 2 ^ 64) (hc : p.coords ≠ [])
    (hs : PathSmall p) :
    pathToRectList (some p) = .ok (List.replicate (p.coords.length - 1) (originRect p.layer)) :=
  pathToRectList_ok p ht hc hl hs

/-- **C35** Consequence: the rectangles never contain a point other than the origin (closed rectangle spanned
by the returned bounding box). -/
theorem C35_covers_only_origin (p : Geometry) (ht : p.type = .path) (hl : p.coords.length < 2 ^ 64)
    (rs : List Geometry) (h : pathToRectList (some p) = .ok rs) (r : Geometry) (hr : r ∈ rs) (x y : Int)
    (hin : r.min.x ≤ x ∧ x ≤ r.max.x ∧ r.min.y ≤ y ∧ y ≤ r.max.y) : x = 0 ∧ y = 0 := by
  rw [(C35_result p ht hl rs h).2, List.mem_replicate] at hr
  rw [hr.2] at hin
  simp only [originRect] at hin
  omega

/-- **C35** The result does not depend on where the points are: two convertible paths with equally many
points on the same layer give equal results. -/
theorem C35_ignores_points (p q : Geometry) (hp : p.type = .path) (hq : q.type = .path)
    (hlp : p.coords.length < 2 ^ 64) (hlen : p.coords.length = q.coords.length) (hlay : p.layer = q.layer)
    (rs qs : List Geometry) (h1 : pathToRectList (some p) = .ok rs) (h2 : pathToRectList (some q) = .ok qs) :
    rs = qs := by
  rw [(C35_result p hp hlp rs h1).2, (C35_result q hq (by omega) qs h2).2, hlen, hlay]

/-- **C35** Each returned rectangle is a closed five-point outline of type rectangle. -/
theorem C35_shape (p : Geometry) (ht : p.type = .path) (hl : p.coords.length < 2 ^ 64) (rs : List Geometry)
    (h : pathToRectList (some p) = .ok rs) (r : Geometry) (hr : r ∈ rs) :
    r.type = .rectangle ∧ r.coords.length = 5 ∧ r.coords.head? = r.coords.getLast? ∧ r.layer = p.layer := by
  rw [(C35_result p ht hl rs h).2, List.mem_replicate] at hr
  rw [hr.2]
  exact ⟨rfl, rfl, rfl, rfl⟩

/-- **C35** The function that makes these rectangles, by itself: from two opposite corners whose differences are in range it makes the closed
outline left-top, right-top, right-bottom, left-bottom, left-top with the enclosing box and the layer; with differences out of range it is
undefined. -/
theorem C35_make_rectangle (lb rt : Coord) (layer : Int) (h1 : inI32 lb.x) (h2 : inI32 lb.y) :
    Converter.fillBox (some { type := .rectangle }) lb rt layer =
      if inI32 (rt.x - lb.x) ∧ inI32 (rt.y - lb.y) then
        .ok { type := .rectangle, layer := layer, coords := [⟨lb.x, rt.y⟩, rt, ⟨rt.x, lb.y⟩, lb, ⟨lb.x, rt.y⟩],
              min := ⟨min lb.x rt.x, min lb.y rt.y⟩, max := ⟨max lb.x rt.x, max lb.y rt.y⟩ }
      else .ub := by
  by_cases h : inI32 (rt.x - lb.x) ∧ inI32 (rt.y - lb.y)
  · obtain ⟨h3, h4⟩ := h
    rw [if_pos ⟨h3, h4⟩]
    have e1 : rt.x - (rt.x - lb.x) = lb.x := by omega
    have e2 : rt.y - (rt.y - lb.y) = lb.y := by omega
    unfold Converter.fillBox
    simp only [ne_eq, not_true_eq_false, if_false, sub32, chk32, if_pos h3, if_pos h4, Res.ok_bind, e1, e2, if_pos h1, if_pos h2]
    obtain ⟨x1, y1⟩ := lb
    obtain ⟨x2, y2⟩ := rt
    simp only [List.nil_append, List.cons_append, List.foldl_cons, List.foldl_nil, bboxStep]
    have m1 : ∀ a b : Int, min a b = if b < a then b else a := by intro a b; split <;> omega
    have m2 : ∀ a b : Int, max a b = if a < b then b else a := by intro a b; split <;> omega
    rw [m1, m1, m2, m2]
    rcases lt_trichotomy x1 x2 with hx | hx | hx <;> rcases lt_trichotomy y1 y2 with hy | hy | hy <;>
      simp [hx, hy, not_lt_of_gt]
  · rw [if_neg h]
    unfold Converter.fillBox
    by_cases h3 : inI32 (rt.x - lb.x)
    · have h4 : ¬ inI32 (rt.y - lb.y) := fun h4 => h ⟨h3, h4⟩
      simp only [ne_eq, not_true_eq_false, if_false, sub32, chk32, if_pos h3, if_neg h4, Res.ok_bind, Res.ub_bind]
    · simp only [ne_eq, not_true_eq_false, if_false, sub32, chk32, if_neg h3, Res.ub_bind]

/-- **C35** Anything that is not a path — also a null pointer — is rejected with `invalid_argument`; a path
never makes the function throw. -/
theorem C35_rejects (g : Option Geometry) (hl : ∀ p, g = some p → p.coords.length < 2 ^ 64) :
    pathToRectList g = .throw .invalidArgument ↔ getType g ≠ .path := by
  cases g with
  | none => simp [pathToRectList, getType]
  | some p =>
    show _ ↔ p.type ≠ .path
    constructor
    · intro h ht
      by_cases hc : p.coords = []
      · rw [pathToRectList_empty p ht hc] at h; cases h
      · rcases pathToRectList_cases p ht hc (hl p rfl) with h' | h' <;> rw [h'] at h <;> cases h
    · intro ht
      simp [pathToRectList, ht]

/-- **C35** A path without points is undefined behaviour. -/
theorem C35_empty_path_ub (p : Geometry) (ht : p.type = .path) (hc : p.coords = []) :
    pathToRectList (some p) = .ub := pathToRectList_empty p ht hc

/-- **C35** Exactly when a path can be converted: every segment must fit (`Spec.SegmentFits` — the corner sums the code forms for that segment
are in the range of a 32-bit integer); if one does not, the call is undefined. -/
theorem C35_exact (p : Geometry) (ht : p.type = .path) (hl : p.coords.length < 2 ^ 64) (hc : p.coords ≠ []) :
    ((∃ rs, pathToRectList (some p) = .ok rs) ↔
      ∀ i, (h : i + 1 < p.coords.length) →
        SegmentFits (i + 2 = p.coords.length) p.coords[i] p.coords[i + 1] (p.width.tdiv 2)) ∧
    (pathToRectList (some p) = .ub ↔
      ∃ i, ∃ h : i + 1 < p.coords.length,
        ¬ SegmentFits (i + 2 = p.coords.length) p.coords[i] p.coords[i + 1] (p.width.tdiv 2)) := by
  have h1 := pathToRectList_iff p ht hc hl
  refine ⟨h1, ?_⟩
  have h2 : pathToRectList (some p) = .ub ↔ ¬ ∃ rs, pathToRectList (some p) = .ok rs := by
    rcases pathToRectList_cases p ht hc hl with h | h
    · rw [h]; simp
    · rw [h]; simp
  rw [h2, h1]
  push Not
  rfl

/-! ### C36 -/

/-- elements whose geometry point lists fit in memory -/
def SizesFit (H : Elements) : Prop := ∀ e g, some g ∈ (H e).geometries → g.coords.length < 2 ^ 64

/-- **C36** Whenever `SplitSref` returns, its result contains exactly the drawn geometries of the referenced
element: every polygon and rectangle reachable through references, moved by the accumulated offset, and an
origin rectangle per path segment. -/
theorem C36_exact (H : Elements) (hlen : SizesFit H) (n : Nat) (r : Geometry) (mn : Coord)
    (l : List Geometry) (h : splitSref H n (some r) mn = some (.ok l)) :
    ∃ e, r.element = some e ∧ ∀ g, g ∈ l ↔ Drawn H e mn g := by
  obtain ⟨_, e, _, _, he, _⟩ := splitSref_ok_inv h
  exact ⟨e, he, splitSref_mem hlen n r mn l e h he⟩

theorem splitAll_listing {H : Elements} {rec : Option Geometry → Coord → Run (List Geometry)}
    (hrec : ∀ (g : Geometry) d l, rec (some g) d = some (.ok l) →
      ∃ e, g.element = some e ∧ Listing H (shiftC d (H e).min) (H e).geometries l) {mn : Coord} :
    ∀ (gs : List (Option Geometry)) (l : List Geometry), (∀ g, some g ∈ gs → g.coords.length < 2 ^ 64) →
      splitAll rec mn gs = some (.ok l) → Listing H mn gs l := by
  intro gs
  induction gs with
  | nil => intro l _ h; simp only [splitAll, Option.some.injEq, Res.ok.injEq] at h; subst h; exact .done
  | cons it rest ih =>
    intro l hl h
    unfold splitAll at h
    obtain ⟨a, ha, h⟩ := Run.bind_ok h
    obtain ⟨b, hb, h⟩ := Run.bind_ok h
    simp only [Option.some.injEq, Res.ok.injEq] at h
    subst h
    have hr := ih b (fun g hg => hl g (by simp [hg])) hb
    cases it with
    | none =>
      simp only [splitOne, Option.some.injEq, Res.ok.injEq] at ha
      subst ha
      exact .null hr
    | some g =>
      rcases splitOne_ok (hl g (by simp)) ha with ⟨t, rfl⟩ | ⟨t, rfl⟩ | ⟨t, hx⟩ | ⟨t, rfl⟩
      · exact .shape t hr
      · exact .path t hr
      · obtain ⟨e, he, hx⟩ := hrec g mn a hx
        exact .reference t he hx hr
      · exact .nothing t hr

/-- **C36** The result as a list, with order and repetitions: the geometries of the referenced element one after the other, each
reference replaced by the listing of its own element. -/
theorem C36_listing (H : Elements) (hlen : SizesFit H) (n : Nat) (r : Geometry) (mn : Coord)
    (l : List Geometry) (h : splitSref H n (some r) mn = some (.ok l)) :
    ∃ e, r.element = some e ∧ Listing H (shiftC mn (H e).min) (H e).geometries l := by
  induction n generalizing r mn l with
  | zero => cases h
  | succ n ih =>
    obtain ⟨k, e, hk, _, he, ha⟩ := splitSref_ok_inv h
    obtain rfl : k = n := by omega
    exact ⟨e, he, splitAll_listing (fun g d l hx => ih g d l hx) _ _ (hlen e) ha⟩

/-- **C36** …and there is only one such list. -/
theorem C36_listing_unique (H : Elements) (d : Coord) (gs : List (Option Geometry)) (l l' : List Geometry)
    (h : Listing H d gs l) (h' : Listing H d gs l') : l = l' := by
  induction h generalizing l' with
  | done => cases h'; rfl
  | null _ ih => cases h' with | null h' => exact ih _ h'
  | shape t _ ih =>
    cases h' with
    | shape _ h' => rw [ih _ h']
    | path t' _ => rw [t'] at t; simp at t
    | reference t' _ _ _ => rw [t'] at t; simp at t
    | nothing t' _ => rcases t with t | t <;> rw [t] at t' <;> simp at t'
  | path t _ ih =>
    cases h' with
    | shape t' _ => rw [t] at t'; simp at t'
    | path _ h' => rw [ih _ h']
    | reference t' _ _ _ => rw [t] at t'; cases t'
    | nothing t' _ => rw [t] at t'; simp at t'
  | reference t he _ _ ia ih =>
    cases h' with
    | shape t' _ => rw [t] at t'; simp at t'
    | path t' _ => rw [t] at t'; cases t'
    | reference _ he' ha' h' =>
      rw [he] at he'
      cases he'
      rw [ih _ h', ia _ ha']
    | nothing t' _ => rw [t] at t'; simp at t'
  | nothing t _ ih =>
    cases h' with
    | shape t' _ => rcases t with t | t <;> rw [t] at t' <;> simp at t'
    | path t' _ => rw [t'] at t; simp at t
    | reference t' _ _ _ => rw [t'] at t; simp at t
    | nothing _ h' => exact ih _ h'

/-- **C36** Only polygons and rectangles are returned. -/
theorem C36_only_drawable (H : Elements) (hlen : SizesFit H) (n : Nat) (r : Geometry) (mn : Coord)
    (l : List Geometry) (h : splitSref H n (some r) mn = some (.ok l)) (g : Geometry) (hg : g ∈ l) :
    g.type = .polygon ∨ g.type = .rectangle := by
  obtain ⟨e, _, hm⟩ := C36_exact H hlen n r mn l h
  cases (hm g).mp hg with
  | shape _ _ ht => exact ht
  | segment _ _ _ _ => exact .inr rfl

/-- **C36** On an acyclic element graph (some rank decreases along every reference) the call ends — with a
result, an exception or UB — within a nesting depth bounded by the rank. -/
theorem C36_terminates (H : Elements) (rank : Nat → Nat) (hr : ∀ e e', RefersTo H e e' → rank e' < rank e)
    (r : Geometry) (mn : Coord) : ∃ n, splitSref H n (some r) mn ≠ none := by
  cases he : r.element with
  | none => exact ⟨1, splitSref_terminates hr 0 r mn (by intro e h; rw [he] at h; cases h)⟩
  | some e =>
    exact ⟨rank e + 2, splitSref_terminates hr (rank e + 1) r mn (by
      intro e' h; rw [he] at h; injection h with h; subst h; omega)⟩

/-- **C36** …and it succeeds when all referenced elements exist, all offsets and moved coordinates fit 32
bits and all paths are non-empty and of moderate size. -/
theorem C36_succeeds (H : Elements) (rank : Nat → Nat) (hr : ∀ e e', RefersTo H e e' → rank e' < rank e)
    (r : Geometry) (base : Coord) (e0 : Nat) (ht : r.type = .reference) (he : r.element = some e0)
    (hptr : ∀ e d r, Placed H e0 base e d → some r ∈ (H e).geometries → r.type = .reference → r.element ≠ none)
    (hoff : ∀ e d, Placed H e0 base e d → inI32 d.x ∧ inI32 d.y)
    (hdr : ∀ g, Drawn H e0 base g → GeomInRange g)
    (hp : ∀ e d g, Placed H e0 base e d → some g ∈ (H e).geometries → g.type = .path →
      g.coords ≠ [] ∧ g.coords.length < 2 ^ 64 ∧ PathSmall g) :
    ∃ n l, splitSref H n (some r) base = some (.ok l) := by
  obtain ⟨l, h⟩ := splitSref_succeeds hr e0 base hptr hoff hdr hp (rank e0 + 1) r base e0 ht he .root (by omega)
  exact ⟨_, l, h⟩

/-- **C36** The outcome is a function of the arguments: a deeper recursion limit never changes it. -/
theorem C36_deterministic (H : Elements) (s : Option Geometry) (mn : Coord) (n m : Nat) (a b : Res (List Geometry))
    (h1 : splitSref H n s mn = some a) (h2 : splitSref H m s mn = some b) : a = b := by
  have up : ∀ k n v, splitSref H n s mn = some v → splitSref H (n + k) s mn = some v := by
    intro k
    induction k with
    | zero => intro n v h; exact h
    | succ k ih => intro n v h; exact splitSref_mono _ _ _ (ih n v h)
  have e1 := up m n a h1
  have e2 := up n m b h2
  rw [Nat.add_comm] at e2
  rw [e1] at e2
  injection e2

/-- `e'` is reached from `e` by one or more references -/
inductive ReachesPlus (H : Elements) : Nat → Nat → Prop
  | one {e e'} : RefersTo H e e' → ReachesPlus H e e'
  | cons {e e' e''} : RefersTo H e e' → ReachesPlus H e' e'' → ReachesPlus H e e''

/-- **C36** A reference from which a cycle can be reached is never flattened: at no recursion depth does the call return. -/
theorem C36_cycle_never_returns (H : Elements) (r : Geometry) (e c : Nat) (he : r.element = some e)
    (hin : e = c ∨ ReachesPlus H e c) (hcyc : ReachesPlus H c c) (mn : Coord) (n : Nat) (l : List Geometry) :
    splitSref H n (some r) mn ≠ some (.ok l) := by
  have down : ∀ {e e' : Nat}, ReachesPlus H e e' → ∀ {n r mn l}, splitSref H n (some r) mn = some (.ok l) →
      r.element = some e → ∃ k r' mn' l', k < n ∧ r'.element = some e' ∧
        splitSref H k (some r') mn' = some (.ok l') := by
    intro e e' hr
    induction hr with
    | one h1 =>
      intro n r mn l h he
      obtain ⟨k, r', mn', l', hk, he', h'⟩ := splitSref_descend h he h1
      exact ⟨k, r', mn', l', by omega, he', h'⟩
    | cons h1 _ ih =>
      intro n r mn l h he
      obtain ⟨k, r', mn', l', hk, he', h'⟩ := splitSref_descend h he h1
      obtain ⟨k2, r2, mn2, l2, hk2, he2, h2⟩ := ih h' he'
      exact ⟨k2, r2, mn2, l2, by omega, he2, h2⟩
  have key : ∀ n r mn l, r.element = some c → splitSref H n (some r) mn ≠ some (.ok l) := by
    intro n
    induction n using Nat.strong_induction_on with
    | _ n ih =>
      intro r mn l he h
      obtain ⟨k, r', mn', l', hk, he', h'⟩ := down hcyc h he
      exact ih k hk r' mn' l' he' h'
  rcases hin with rfl | hin
  · exact key n r mn l he
  · intro h
    obtain ⟨k, r', mn', l', _, he', h'⟩ := down hin h he
    exact key k r' mn' l' he' h'

/-- **C36** A null pointer gives the empty list; a geometry that is not a reference and a reference without
an element are undefined behaviour. -/
theorem C36_degenerate (H : Elements) (n : Nat) (mn : Coord) (r : Geometry) :
    splitSref H (n + 1) none mn = some (.ok []) ∧
    (r.type ≠ .reference → splitSref H (n + 1) (some r) mn = some .ub) ∧
    (r.element = none → splitSref H (n + 1) (some r) mn = some .ub) := by
  refine ⟨rfl, fun h => by simp [splitSref, h], fun h => ?_⟩
  by_cases ht : r.type = .reference <;> simp [splitSref, ht, h]

/-- **C36** The placement stored in the reference (its coordinates, bounding box, layer) has no influence:
references to the same element flatten to the same geometries. -/
theorem C36_ignores_reference_position (H : Elements) (n : Nat) (r r' : Geometry) (mn : Coord)
    (ht : r.type = r'.type) (he : r.element = r'.element) :
    splitSref H n (some r) mn = splitSref H n (some r') mn := by
  cases n with
  | zero => rfl
  | succ n => simp only [splitSref, ht, he]

/-! Non-vacuity. -/

/-- an L-shaped path of three points -/
def samplePath : Geometry :=
  { type := .path, layer := 7, width := 4, coords := [⟨0, 0⟩, ⟨0, 100⟩, ⟨50, 100⟩] }

example : samplePath.type = .path ∧ PathSmall samplePath ∧
    pathToRectList (some samplePath) = .ok [originRect 7, originRect 7] := by
  refine ⟨rfl, ⟨by decide, by decide, by decide⟩, by decide⟩

/-- element 1 refers to element 0, which has a rectangle, a path and a text; element 2 refers to itself -/
def sampleElements : Elements
  | 0 => { geometries := [some { type := .rectangle, coords := [⟨0, 5⟩, ⟨3, 5⟩, ⟨3, 0⟩, ⟨0, 0⟩, ⟨0, 5⟩], min := ⟨0, 0⟩, max := ⟨3, 5⟩ }, some samplePath, some { type := .text }],
           min := ⟨10, 20⟩ }
  | 1 => { geometries := [some { type := .reference, element := some 0 }, none], min := ⟨1, 1⟩ }
  | _ => { geometries := [some { type := .reference, element := some 2 }] }

example : splitSref sampleElements 3 (some { type := .reference, element := some 1 }) ⟨100, 200⟩ =
    some (.ok [{ type := .rectangle, coords := [⟨111, 226⟩, ⟨114, 226⟩, ⟨114, 221⟩, ⟨111, 221⟩, ⟨111, 226⟩], min := ⟨111, 221⟩, max := ⟨114, 226⟩ },
      translate ⟨111, 221⟩ (originRect 7), translate ⟨111, 221⟩ (originRect 7)]) := by decide

/-- the two-level sample is acyclic… -/
example : ∃ rank : Nat → Nat, ∀ e e', RefersTo (fun e => if e = 1 then sampleElements 1 else sampleElements 0) e e' →
    rank e' < rank e := by
  refine ⟨fun e => if e = 1 then 1 else 0, ?_⟩
  rintro e e' ⟨r, hm, ht, he⟩
  by_cases h : e = 1
  · subst h
    simp [sampleElements] at hm
    subst hm
    simp at he
    subst he
    decide
  · simp [h, sampleElements] at hm
    rcases hm with rfl | rfl | rfl <;> simp [samplePath] at ht

/-- …and element 2 is a cycle -/
example : ReachesPlus sampleElements 2 2 :=
  .one ⟨{ type := .reference, element := some 2 }, by simp [sampleElements], rfl, rfl⟩

/-- C35_make_rectangle at work, both ways. -/
example : Converter.fillBox (some { type := .rectangle }) ⟨-1, 2⟩ ⟨4, -6⟩ 7 =
      .ok { type := .rectangle, layer := 7, coords := [⟨-1, -6⟩, ⟨4, -6⟩, ⟨4, 2⟩, ⟨-1, 2⟩, ⟨-1, -6⟩], min := ⟨-1, -6⟩, max := ⟨4, 2⟩ } ∧
    Converter.fillBox (some { type := .rectangle }) ⟨-1, 2⟩ ⟨2147483647, 5⟩ 7 = .ub :=
  ⟨(C35_make_rectangle ⟨-1, 2⟩ ⟨4, -6⟩ 7 (by unfold inI32; decide) (by unfold inI32; decide)).trans
      (if_pos ⟨by unfold inI32; decide, by unfold inI32; decide⟩),
    (C35_make_rectangle ⟨-1, 2⟩ ⟨2147483647, 5⟩ 7 (by unfold inI32; decide) (by unfold inI32; decide)).trans
      (if_neg fun h => absurd h.1 (by unfold inI32; decide))⟩

/-- C35_exact at work: with a last segment ending at the largest coordinate the path converts (nothing is added to a last point), with one more
point after it it does not. -/
example : (∃ rs, pathToRectList (some { type := .path, layer := 3, width := 4, coords := [⟨0, 0⟩, ⟨2147483647, 0⟩] }) = .ok rs) ∧
    pathToRectList (some { type := .path, layer := 3, width := 4, coords := [⟨0, 0⟩, ⟨2147483647, 0⟩, ⟨0, 0⟩] }) = .ub := by
  constructor
  · refine (C35_exact _ rfl (by decide) (by simp)).1.mpr fun i h => ?_
    obtain rfl : i = 0 := by simp at h; omega
    show SegmentFits true ⟨0, 0⟩ ⟨2147483647, 0⟩ 2
    unfold SegmentFits inI32
    decide
  · refine (C35_exact _ rfl (by decide) (by simp)).2.mpr ⟨0, by decide, ?_⟩
    unfold SegmentFits inI32
    decide

end Verif.Props
