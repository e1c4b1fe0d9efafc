import Verif.Props.LayoutConverter
import Verif.Spec.Flatten

/-! # C99: how large a flattened reference is, and how it depends on the offset

The number of geometries `SplitSref` returns is the number of ways down to a drawable geometry; it can be exponential in the size of the
layout. -/

namespace Verif.Props

open Verif Spec Converter

theorem Listing.length {H : Elements} {cnt : Nat → Nat} (hc : Counts H cnt) {d : Coord} {gs : List (Option Geometry)}
    {l : List Geometry} (h : Listing H d gs l) : l.length = (gs.map (contribution cnt)).sum := by
  induction h with
  | done => rfl
  | null _ ih => simpa [contribution] using ih
  | shape ht _ ih => rcases ht with ht | ht <;> simp [contribution, ht, ih] <;> omega
  | path ht _ ih => simp [contribution, ht, ih]
  | reference ht he _ _ ih1 ih2 => simp [contribution, ht, he, ih1, ih2, hc _]
  | nothing ht _ ih => rcases ht with ht | ht <;> simp [contribution, ht, ih]

/-- **C99** Whenever the call returns, the number of geometries returned is what the counting equation says for the referenced
element. -/
theorem C99_count (H : Elements) (hlen : SizesFit H) (cnt : Nat → Nat) (hc : Counts H cnt) (n : Nat) (r : Geometry) (mn : Coord)
    (l : List Geometry) (h : splitSref H n (some r) mn = some (.ok l)) : ∃ e, r.element = some e ∧ l.length = cnt e := by
  obtain ⟨e, he, hl⟩ := C36_listing H hlen n r mn l h
  exact ⟨e, he, by rw [hc e]; exact Listing.length hc hl⟩

/-- **C99** On an acyclic element graph the counting equation has a solution… -/
theorem C99_counts_exist (H : Elements) (rank : Nat → Nat) (hr : ∀ e e', RefersTo H e e' → rank e' < rank e) :
    ∃ cnt, Counts H cnt := by
  let F : Nat → Nat → Nat := fun m => m.rec (fun _ => 0) (fun _ c e => ((H e).geometries.map (contribution c)).sum)
  have hF : ∀ m e, F (m + 1) e = ((H e).geometries.map (contribution (F m))).sum := fun _ _ => rfl
  have congr : ∀ (c c' : Nat → Nat) e, (∀ e', RefersTo H e e' → c e' = c' e') →
      ((H e).geometries.map (contribution c)).sum = ((H e).geometries.map (contribution c')).sum := by
    intro c c' e h
    congr 1
    refine List.map_congr_left fun o ho => ?_
    cases o with
    | none => rfl
    | some g =>
      unfold contribution
      cases hg : g.type
      case reference =>
        cases he : g.element with
        | none => simp [hg, he]
        | some e' => simpa [hg, he] using h e' ⟨g, ho, hg, he⟩
      all_goals simp [hg]
  have stable : ∀ m k e, rank e < m → rank e < k → F m e = F k e := by
    intro m
    induction m with
    | zero => intro k e h; omega
    | succ m ih =>
      intro k e h hk
      obtain ⟨k, rfl⟩ : ∃ j, k = j + 1 := ⟨k - 1, by omega⟩
      rw [hF, hF]
      exact congr _ _ e fun e' he' => ih k e' (by have := hr e e' he'; omega) (by have := hr e e' he'; omega)
  refine ⟨fun e => F (rank e + 1) e, fun e => ?_⟩
  show F (rank e + 1) e = _
  rw [hF]
  exact congr _ _ e fun e' he' => stable (rank e) (rank e' + 1) e' (hr e e' he') (by omega)

/-- **C99** …and whenever a call on a reference to `e` can return, any two solutions agree on `e`. -/
theorem C99_counts_agree (H : Elements) (hlen : SizesFit H) (cnt cnt' : Nat → Nat) (hc : Counts H cnt) (hc' : Counts H cnt')
    (n : Nat) (r : Geometry) (e : Nat) (he : r.element = some e) (mn : Coord) (l : List Geometry)
    (h : splitSref H n (some r) mn = some (.ok l)) : cnt e = cnt' e := by
  obtain ⟨e1, h1, h2⟩ := C99_count H hlen cnt hc n r mn l h
  obtain ⟨e2, h3, h4⟩ := C99_count H hlen cnt' hc' n r mn l h
  rw [he] at h1 h3; cases h1; cases h3; rw [← h2, h4]

theorem Listing.length_le {H : Elements} (rank : Nat → Nat) (w p : Nat) (hw : 1 ≤ w) (hp : 1 ≤ p)
    (hr : ∀ e e', RefersTo H e e' → rank e' < rank e) (hgs : ∀ e, (H e).geometries.length ≤ w)
    (hpath : ∀ e g, some g ∈ (H e).geometries → g.type = .path → g.coords.length ≤ p + 1)
    {d : Coord} {gs : List (Option Geometry)} {l : List Geometry} (h : Listing H d gs l) :
    ∀ m, (∀ g e, some g ∈ gs → g.type = .reference → g.element = some e → rank e < m) →
      (∀ g, some g ∈ gs → g.type = .path → g.coords.length ≤ p + 1) → l.length ≤ gs.length * (p * w ^ m) := by
  have one : ∀ m, 1 ≤ w ^ m := fun m => Nat.one_le_pow _ _ hw
  induction h with
  | done => intros; simp
  | null _ ih =>
    intro m h1 h2
    have := ih m (fun g e hg => h1 g e (by simp [hg])) (fun g hg => h2 g (by simp [hg]))
    simp only [List.length_cons, Nat.add_mul, Nat.one_mul]; omega
  | shape _ _ ih =>
    intro m h1 h2
    have := ih m (fun g e hg => h1 g e (by simp [hg])) (fun g hg => h2 g (by simp [hg]))
    have : 1 ≤ p * w ^ m := Nat.mul_pos hp (one m)
    simp only [List.length_cons, Nat.add_mul, Nat.one_mul]; omega
  | @path _ g _ _ ht _ ih =>
    intro m h1 h2
    have := ih m (fun g e hg => h1 g e (by simp [hg])) (fun g hg => h2 g (by simp [hg]))
    have hg := h2 g (by simp) ht
    have : p ≤ p * w ^ m := Nat.le_mul_of_pos_right _ (one m)
    simp only [List.length_cons, Nat.add_mul, Nat.one_mul, List.length_append, List.length_replicate]; omega
  | nothing _ _ ih =>
    intro m h1 h2
    have := ih m (fun g e hg => h1 g e (by simp [hg])) (fun g hg => h2 g (by simp [hg]))
    simp only [List.length_cons, Nat.add_mul, Nat.one_mul]; omega
  | @reference _ g e _ _ _ ht he _ _ ih1 ih2 =>
    intro m h1 h2
    have hrest := ih2 m (fun g e hg => h1 g e (by simp [hg])) (fun g hg => h2 g (by simp [hg]))
    have hlt := h1 g e (by simp) ht he
    have ha := ih1 (rank e) (fun g' e' hg' ht' he' => hr e e' ⟨g', hg', ht', he'⟩) (fun g' hg' => hpath e g' hg')
    have hb : (H e).geometries.length * (p * w ^ rank e) ≤ p * w ^ m := by
      calc (H e).geometries.length * (p * w ^ rank e) ≤ w * (p * w ^ rank e) := Nat.mul_le_mul_right _ (hgs e)
        _ = p * w ^ (rank e + 1) := by rw [Nat.pow_succ]; ac_rfl
        _ ≤ p * w ^ m := Nat.mul_le_mul_left _ (Nat.pow_le_pow_right hw hlt)
    simp only [List.length_cons, Nat.add_mul, Nat.one_mul, List.length_append]; omega

/-- **C99** Upper bound: when no element has more than `w` geometries, no path more than `p` segments and the references go at most
`rank` levels down, the result has at most `p · w^(rank+1)` geometries. -/
theorem C99_at_most (H : Elements) (hlen : SizesFit H) (rank : Nat → Nat) (w p : Nat) (hw : 1 ≤ w) (hp : 1 ≤ p)
    (hr : ∀ e e', RefersTo H e e' → rank e' < rank e) (hgs : ∀ e, (H e).geometries.length ≤ w)
    (hpath : ∀ e g, some g ∈ (H e).geometries → g.type = .path → g.coords.length ≤ p + 1)
    (n : Nat) (r : Geometry) (e : Nat) (he : r.element = some e) (mn : Coord) (l : List Geometry)
    (h : splitSref H n (some r) mn = some (.ok l)) : l.length ≤ p * w ^ (rank e + 1) := by
  obtain ⟨e', he', hl⟩ := C36_listing H hlen n r mn l h
  rw [he] at he'; injection he' with he'; subst he'
  have := Listing.length_le rank w p hw hp hr hgs hpath hl (rank e) (fun g' e' hg' ht' he' => hr e e' ⟨g', hg', ht', he'⟩)
    (fun g' hg' => hpath e g' hg')
  calc l.length ≤ (H e).geometries.length * (p * w ^ rank e) := this
    _ ≤ w * (p * w ^ rank e) := Nat.mul_le_mul_right _ (hgs e)
    _ = p * w ^ (rank e + 1) := by rw [Nat.pow_succ]; ac_rfl

theorem splitSref_doubling (k : Nat) (box : Geometry) (hb : box.type = .rectangle) (hin : GeomInRange box) :
    ∀ j, j ≤ k → ∀ r : Geometry, r.type = .reference → r.element = some (k - j) →
      splitSref (doubling k box) (j + 1) (some r) ⟨0, 0⟩ = some (.ok (List.replicate (2 ^ j) box)) := by
  have h0 : add32 0 0 = .ok 0 := by decide
  have htr : translate ⟨0, 0⟩ box = box := by
    unfold translate
    have : ∀ c : Coord, shiftC c ⟨0, 0⟩ = c := fun c => by simp [shiftC]
    simp [this]
  have hmv : addCoordValue box ⟨0, 0⟩ = .ok box := by
    have := addCoordValue_inRange (g := box) (d := ⟨0, 0⟩) (by rw [htr]; exact hin)
    rwa [htr] at this
  intro j
  induction j with
  | zero =>
    intro _ r ht he
    simp [splitSref, ht, he, doubling, h0, Run.bind, splitAll, splitOne, hb, hmv, Bind.bind, pure]
  | succ j ih =>
    intro hj r ht he
    have hstep := ih (by omega) { type := .reference, element := some (k - (j + 1) + 1) } rfl
      (by show some _ = some _; congr 1; omega)
    have hlt : k - (j + 1) < k := by omega
    have hmin : (doubling k box (k - (j + 1))).min = ⟨0, 0⟩ := by simp [doubling, hlt]
    have hgs : (doubling k box (k - (j + 1))).geometries =
        [some { type := .reference, element := some (k - (j + 1) + 1) },
          some { type := .reference, element := some (k - (j + 1) + 1) }] := by simp [doubling, hlt]
    rw [splitSref]
    simp only [ht, he, hmin, hgs, h0, ne_eq, not_true_eq_false, if_false, Bind.bind, pure, Res.bind]
    simp only [Run.bind, splitAll, splitOne, hstep]
    simp [List.replicate_append_replicate, Nat.pow_succ, Nat.mul_two]

/-- **C99** No bound that is polynomial in the size of the layout holds: a layout of `k + 1` elements with `2 k + 1` geometries in all
— `k` elements with two references each and one element with one rectangle — makes the call return that rectangle `2^k` times. -/
theorem C99_doubles (k : Nat) (box : Geometry) (hb : box.type = .rectangle) (hin : GeomInRange box) :
    (∀ e, (doubling k box e).geometries.length ≤ 2 ∧ (k < e → (doubling k box e).geometries = [])) ∧
    (((List.range (k + 1)).map fun e => (doubling k box e).geometries.length).sum = 2 * k + 1) ∧
    ∀ r : Geometry, r.type = .reference → r.element = some 0 →
      splitSref (doubling k box) (k + 1) (some r) ⟨0, 0⟩ = some (.ok (List.replicate (2 ^ k) box)) := by
  refine ⟨?_, ?_, ?_⟩
  · intro e
    refine ⟨by unfold doubling; split <;> (try split) <;> simp, fun h => ?_⟩
    simp [doubling, show ¬ e < k by omega, show ¬ e = k by omega]
  · have : ∀ m, m ≤ k → ((List.range m).map fun e => (doubling k box e).geometries.length).sum = 2 * m := by
      intro m
      induction m with
      | zero => intro _; rfl
      | succ m ih =>
        intro hm
        rw [List.range_succ, List.map_append, List.sum_append, ih (by omega)]
        simp [doubling, show m < k by omega]; omega
    rw [List.range_succ, List.map_append, List.sum_append, this k (Nat.le_refl k)]
    simp [doubling]
  · intro r ht he
    exact splitSref_doubling k box hb hin k (Nat.le_refl k) r ht (by simpa using he)

theorem Listing.shift {H : Elements} {d : Coord} {gs : List (Option Geometry)} {l : List Geometry} (h : Listing H d gs l)
    (v : Coord) : Listing H (shiftC d v) gs (l.map (translate v)) := by
  have ht : ∀ (d : Coord) (g : Geometry), translate v (translate d g) = translate (shiftC d v) g := by
    intro d g
    simp [translate, shiftC, Int.add_assoc, List.map_map, Function.comp_def]
  induction h with
  | done => exact .done
  | null _ ih => exact .null ih
  | shape hg _ ih => rw [List.map_cons, ht]; exact .shape hg ih
  | path hg _ ih => rw [List.map_append, List.map_replicate, ht]; exact .path hg ih
  | @reference d g e _ _ _ hg he _ _ ih1 ih2 =>
    rw [List.map_append]
    have : shiftC (shiftC d (H e).min) v = shiftC (shiftC d v) (H e).min := by
      simp only [shiftC, Coord.mk.injEq]; omega
    rw [this] at ih1
    exact .reference hg he ih1 ih2
  | nothing hg _ ih => exact .nothing hg ih

/-- **C99** The offset moves the result and does nothing else: two calls with the same reference whose offsets differ by `v` return, if
both return, the same geometries in the same order, those of the second call moved by `v`. -/
theorem C99_offset (H : Elements) (hlen : SizesFit H) (n m : Nat) (r : Geometry) (mn v : Coord) (l l' : List Geometry)
    (h : splitSref H n (some r) mn = some (.ok l)) (h' : splitSref H m (some r) (shiftC mn v) = some (.ok l')) :
    l' = l.map (translate v) := by
  obtain ⟨e, he, hl⟩ := C36_listing H hlen n r mn l h
  obtain ⟨e', he', hl'⟩ := C36_listing H hlen m r _ l' h'
  rw [he] at he'; injection he' with he'; subst he'
  have h1 := Listing.shift hl v
  have : shiftC (shiftC mn (H e).min) v = shiftC (shiftC mn v) (H e).min := by
    simp only [shiftC, Coord.mk.injEq]; omega
  rw [this] at h1
  exact C36_listing_unique H _ _ _ _ hl' h1

end Verif.Props
