import Verif.Proofs.Msk
import Mathlib.Data.Nat.Digits.Lemmas

/-! The layers the MSK reader builds, and the bounding box of the element. -/

namespace Verif.Msk
open Verif Scan Spec.Msk

theorem addItems_append (junk : Int) (acc : Acc) (a b : List Item) :
    addItems junk acc (a ++ b) = addItems junk (addItems junk acc a) b := List.foldl_append

theorem addItems_geoms (junk : Int) (acc : Acc) (is : List Item) :
    (addItems junk acc is).geoms = acc.geoms ++ is.map fun i => some i.box := by
  induction is generalizing acc with
  | nil => simp [addItems]
  | cons i is ih =>
    have : addItems junk acc (i :: is) = addItems junk (addItem junk acc i) is := rfl
    rw [this, ih]
    simp [addItem]

theorem addToLayer_nums (junk num : Int) (name : List UInt8) (box : Geometry) (ls : List Layer) :
    (addToLayer junk num name box ls).map Layer.layer =
      ls.map Layer.layer ++ if num ∈ ls.map Layer.layer then [] else [num] := by
  induction ls with
  | nil => simp [addToLayer]
  | cons l ls ih =>
    rw [addToLayer]
    split
    · rename_i h; simp [h]
    · rename_i h; simp only [List.map_cons, ih, List.mem_cons, h, false_or, List.cons_append]

theorem order_seen {s t : List Int} (h : ∀ x, x ∈ s ↔ x ∈ t) (is : List Item) : layerOrder s is = layerOrder t is := by
  induction is generalizing s t with
  | nil => rfl
  | cons i is ih =>
    simp only [layerOrder, h i.box.layer, ih h, ih (s := i.box.layer :: s) (t := i.box.layer :: t) (by simp [h])]

theorem addItems_order (junk : Int) (is : List Item) : ∀ (acc : Acc), (addItems junk acc is).layers.map Layer.layer =
    acc.layers.map Layer.layer ++ layerOrder (acc.layers.map Layer.layer) is := by
  induction is with
  | nil => intro acc; simp [addItems, layerOrder]
  | cons i is ih =>
    intro acc
    have e : addItems junk acc (i :: is) = addItems junk (addItem junk acc i) is := rfl
    rw [e, ih, layerOrder]
    have hn : (addItem junk acc i).layers.map Layer.layer = acc.layers.map Layer.layer ++
        if i.isBB ∨ i.box.layer ∉ acc.layers.map Layer.layer then [i.box.layer] else [] := by
      unfold addItem
      cases hb : i.isBB with
      | true => simp
      | false =>
        simp only [Bool.false_eq_true, if_false, addToLayer_nums, false_or]
        split <;> rename_i h <;> simp [h]
    rw [hn]
    split
    · rw [List.append_assoc, List.singleton_append]
      congr 2
      apply order_seen
      intro x
      simp [or_comm]
    · simp

theorem addToLayer_filter (junk num : Int) (name : List UInt8) (box : Geometry) (n : Int) (ls : List Layer) :
    (addToLayer junk num name box ls).filter (fun l => l.layer = n) =
      if num = n then
        match ls.filter (fun l => l.layer = n) with
        | [] => [{ layer := num, dataType := junk, name := name, geometries := [some box] }]
        | l :: rest => { l with geometries := l.geometries ++ [some box] } :: rest
      else ls.filter (fun l => l.layer = n) := by
  induction ls with
  | nil =>
    by_cases h : num = n
    · simp [addToLayer, h]
    · simp [addToLayer, h]
  | cons l ls ih =>
    rw [addToLayer]
    by_cases h1 : num = l.layer
    · rw [if_pos h1]
      by_cases h2 : num = n
      · have h3 : l.layer = n := by omega
        simp [h2, h3]
      · have h3 : ¬ l.layer = n := by omega
        simp [h2, h3]
    · rw [if_neg h1]
      by_cases h2 : num = n
      · have h3 : ¬ l.layer = n := by omega
        simp only [h3, List.filter_cons, decide_false, Bool.false_eq_true, if_false]
        rw [ih]
      · by_cases h3 : l.layer = n
        · simp only [h3, List.filter_cons, decide_true, if_true, h2, if_false]
          rw [ih, if_neg h2]
        · simp only [h3, List.filter_cons, decide_false, Bool.false_eq_true, if_false, h2]
          rw [ih, if_neg h2]

/-- the layer that collects the given items -/
def layerFor (junk n : Int) : List Item → List Layer
  | [] => []
  | i :: is => [{ layer := n, dataType := junk, name := i.name, geometries := (i :: is).map fun i => some i.box }]

theorem addItems_layer (junk n : Int) (is : List Item) (hb : ∀ i ∈ is, i.isBB = true → i.box.layer ≠ n) :
    (addItems junk {} is).layers.filter (fun l => l.layer = n) = layerFor junk n (is.filter fun i => i.box.layer = n) := by
  induction is using List.reverseRecOn with
  | nil => rfl
  | append_singleton is i ih =>
    have ih := ih fun j hj => hb j (by simp [hj])
    rw [addItems_append]
    have : addItems junk (addItems junk {} is) [i] = addItem junk (addItems junk {} is) i := rfl
    rw [this, List.filter_append]
    unfold addItem
    cases hi : i.isBB with
    | true =>
      have := hb i (by simp) hi
      simp only [if_true, List.filter_append, ih]
      simp [this]
    | false =>
      simp only [Bool.false_eq_true, if_false, addToLayer_filter, ih]
      by_cases hn : i.box.layer = n
      · rw [if_pos hn]
        cases hf : is.filter (fun i => i.box.layer = n) with
        | nil => simp [layerFor, hn]
        | cons j js => simp [layerFor, hn]
      · simp [hn]

theorem addItems_bb (junk : Int) (is : List Item) (hb : ∀ i ∈ is, i.isBB = true ↔ i.box.layer = -5) :
    (addItems junk {} is).layers.filter (fun l => l.layer = -5) =
      (is.filter fun i => i.isBB).map fun i => { layer := -5, dataType := junk, name := i.name, geometries := [some i.box] } := by
  induction is using List.reverseRecOn with
  | nil => rfl
  | append_singleton is i ih =>
    have ih := ih fun j hj => hb j (by simp [hj])
    rw [addItems_append]
    have : addItems junk (addItems junk {} is) [i] = addItem junk (addItems junk {} is) i := rfl
    rw [this, List.filter_append, List.map_append, ← ih]
    unfold addItem
    have hi' := hb i (by simp)
    cases hi : i.isBB with
    | true =>
      have := hi'.mp hi
      simp [this]
      simp [hi]
    | false =>
      have : i.box.layer ≠ -5 := fun h => by rw [hi'.mpr h] at hi; cases hi
      simp only [Bool.false_eq_true, if_false, addToLayer_filter, if_neg this]
      simp [hi]

/-! ### bounding box -/

theorem joinBox_ok (mm : Coord × Coord) (g : Geometry) : joinBox mm (some g) =
    .ok (⟨min mm.1.x g.min.x, min mm.1.y g.min.y⟩, ⟨max mm.2.x g.max.x, max mm.2.y g.max.y⟩) := by
  have m1 : ∀ a b : Int, min a b = if a > b then b else a := by intro a b; split <;> omega
  have m2 : ∀ a b : Int, max a b = if a < b then b else a := by intro a b; split <;> omega
  rw [m1, m1, m2, m2]
  unfold joinBox
  dsimp only
  split <;> split <;> split <;> split <;> simp_all

theorem encloses_single (g : Geometry) : Encloses g.min g.max [g] := by
  constructor <;> simp

theorem encloses_join {mn mx : Coord} {gs : List Geometry} (h : Encloses mn mx gs) (g : Geometry) :
    Encloses ⟨min mn.x g.min.x, min mn.y g.min.y⟩ ⟨max mx.x g.max.x, max mx.y g.max.y⟩ (gs ++ [g]) := by
  obtain ⟨h1, h2, h3, h4, ⟨a1, k1, e1⟩, ⟨a2, k2, e2⟩, ⟨a3, k3, e3⟩, ⟨a4, k4, e4⟩⟩ := h
  have mem : ∀ {a}, a ∈ gs ++ [g] ↔ a ∈ gs ∨ a = g := by simp
  refine ⟨?_, ?_, ?_, ?_, ?_, ?_, ?_, ?_⟩
  · intro a ha; rcases mem.mp ha with ha | rfl
    · have := h1 a ha; dsimp only; omega
    · dsimp only; omega
  · intro a ha; rcases mem.mp ha with ha | rfl
    · have := h2 a ha; dsimp only; omega
    · dsimp only; omega
  · intro a ha; rcases mem.mp ha with ha | rfl
    · have := h3 a ha; dsimp only; omega
    · dsimp only; omega
  · intro a ha; rcases mem.mp ha with ha | rfl
    · have := h4 a ha; dsimp only; omega
    · dsimp only; omega
  · rcases Int.le_total mn.x g.min.x with h | h
    · exact ⟨a1, mem.mpr (.inl k1), by dsimp only; omega⟩
    · exact ⟨g, by simp, by dsimp only; omega⟩
  · rcases Int.le_total mn.y g.min.y with h | h
    · exact ⟨a2, mem.mpr (.inl k2), by dsimp only; omega⟩
    · exact ⟨g, by simp, by dsimp only; omega⟩
  · rcases Int.le_total mx.x g.max.x with h | h
    · exact ⟨g, by simp, by dsimp only; omega⟩
    · exact ⟨a3, mem.mpr (.inl k3), by dsimp only; omega⟩
  · rcases Int.le_total mx.y g.max.y with h | h
    · exact ⟨g, by simp, by dsimp only; omega⟩
    · exact ⟨a4, mem.mpr (.inl k4), by dsimp only; omega⟩

theorem foldBox {gs : List Geometry} : ∀ {pre : List Geometry} {mm : Coord × Coord}, Encloses mm.1 mm.2 pre →
    ∃ r, (gs.map some).foldlM joinBox mm = .ok r ∧ Encloses r.1 r.2 (pre ++ gs) := by
  induction gs with
  | nil => intro pre mm h; exact ⟨mm, rfl, by simpa using h⟩
  | cons g gs ih =>
    intro pre mm h
    rw [List.map_cons, List.foldlM_cons, joinBox_ok, Res.ok_bind]
    obtain ⟨r, e, hr⟩ := ih (mm := (⟨min mm.1.x g.min.x, min mm.1.y g.min.y⟩, ⟨max mm.2.x g.max.x, max mm.2.y g.max.y⟩))
      (encloses_join h g)
    exact ⟨r, e, by simpa using hr⟩

/-- the element whose box `Read` computes has geometries, none of them null -/
theorem fixBox_ok {libs : List (Option Library)} {heap : Elements} {lib : Library} {more : List (Option Library)} {a : Nat}
    {els : List (Option Nat)} {gs : List Geometry} (h1 : libs = some lib :: more) (h2 : lib.elements = some a :: els)
    (h3 : (heap a).geometries = gs.map some) (hne : gs ≠ []) :
    ∃ mn mx, Encloses mn mx gs ∧
      fixBox libs heap = .ok fun b => if b = a then { heap a with min := mn, max := mx } else heap b := by
  cases gs with
  | nil => exact absurd rfl hne
  | cons g gs =>
    obtain ⟨r, e, hr⟩ := foldBox (gs := gs) (mm := (g.min, g.max)) (encloses_single g)
    refine ⟨r.1, r.2, by simpa using hr, ?_⟩
    unfold fixBox
    rw [h1]
    simp only [h2, h3, List.map_cons, e]
    rfl

theorem fixBox_ub {libs : List (Option Library)} {heap : Elements}
    (h : ∀ lib more a els g gs, libs = some lib :: more → lib.elements = some a :: els → (heap a).geometries ≠ some g :: gs) :
    fixBox libs heap = .ub := by
  unfold fixBox
  split
  · split
    · split
      · rename_i h1 _ _ _ h3
        exact absurd h3 (h _ _ _ _ _ _ rfl ‹_›)
      · rfl
    · rfl
  · rfl

/-! ### decimal numbers -/

theorem decimalNat_digits (n : Nat) : Digits (decimalNat n) := by
  unfold decimalNat
  split
  · exact ⟨by simp, by simp [IsDig]⟩
  · rename_i h
    constructor
    · simpa [Nat.digits_eq_nil_iff_eq_zero] using h
    · intro c hc
      obtain ⟨d, hd, rfl⟩ := List.mem_map.mp hc
      have := Nat.digits_lt_base (by norm_num : 1 < 10) (List.mem_reverse.mp hd)
      unfold IsDig
      rw [UInt8.toNat_ofNat']
      omega

theorem decimalNat_value (n : Nat) : value (decimalNat n) = n := by
  unfold decimalNat value
  split
  · rename_i h; subst h; rfl
  · rw [← List.map_reverse, List.reverse_reverse, List.map_map]
    have : ((Nat.digits 10 n).map ((fun c : UInt8 => c.toNat - 48) ∘ fun d => UInt8.ofNat (48 + d))) = Nat.digits 10 n := by
      conv_rhs => rw [← List.map_id (Nat.digits 10 n)]
      apply List.map_congr_left
      intro d hd
      have := Nat.digits_lt_base (by norm_num : 1 < 10) hd
      simp only [Function.comp, id, UInt8.toNat_ofNat']
      omega
    rw [this, Nat.ofDigits_digits]

theorem decimal_field (v : Int) : Field (decimal v) v := by
  refine ⟨[], decimal v, rfl, by intro c hc; simp at hc, ?_⟩
  unfold decimal
  split
  · have := IsInt.minus (decimalNat_digits v.natAbs)
    rw [decimalNat_value] at this
    have e : -(v.natAbs : Int) = v := by omega
    rwa [e] at this
  · have := IsInt.plain (decimalNat_digits v.natAbs)
    rw [decimalNat_value] at this
    have e : (v.natAbs : Int) = v := by omega
    rwa [e] at this

/-- the characters of a decimal number -/
theorem decimal_chars (v : Int) : ∀ c ∈ decimal v, 45 ≤ c.toNat := by
  intro c hc
  have key : ∀ c ∈ decimalNat v.natAbs, 45 ≤ c.toNat := by
    intro c hc
    have := (decimalNat_digits v.natAbs).2 c hc
    unfold IsDig at this
    omega
  unfold decimal at hc
  split at hc
  · rcases List.mem_cons.mp hc with rfl | hc
    · decide
    · exact key c hc
  · exact key c hc

end Verif.Msk
