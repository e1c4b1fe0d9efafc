import Verif.Model.LayoutPrinter
import Verif.Proofs.Msk2

/-!
C55: what `LayoutPrinter::PrintGeometry` writes.
-/

namespace Verif.Props
open Verif Printer Spec.Msk

/-- a line, indented -/
def indented (n : Nat) (s : List UInt8) : List UInt8 := List.replicate n 32 ++ s ++ [10]

/-- a point, as `{x, y}` -/
def point (c : Coord) : List UInt8 := bytes "{" ++ decimal c.x ++ bytes ", " ++ decimal c.y ++ bytes "}"

/-- the lines printed for a rectangle with the corners `a` and `b` -/
def rectangleText (depth : Nat) (g : Geometry) (a b : Coord) : List UInt8 :=
  indented (4 * depth) (bytes "Rectangle{") ++
  indented (4 * depth + 4) (bytes "Geometry {") ++
  indented (4 * depth + 6) (bytes "Layer = " ++ decimal g.layer) ++
  indented (4 * depth + 6) (bytes "Min = " ++ point g.min) ++
  indented (4 * depth + 6) (bytes "Max = " ++ point g.max) ++
  indented (4 * depth + 6) (bytes "}") ++
  [10] ++
  indented (4 * depth + 2) (bytes "Type " ++ decimal g.rectType) ++
  indented (4 * depth + 2) (bytes "LeftTop = " ++ point a) ++
  indented (4 * depth + 2) (bytes "RightBot = " ++ point b) ++
  indented (4 * depth) (bytes "}")

theorem showNat_eq (n : Nat) : showNat n = decimalNat n := by
  induction n using Nat.strongRecOn with
  | _ n ih =>
    unfold showNat
    split
    · rename_i h
      unfold decimalNat
      split
      · rename_i h0; subst h0; rfl
      · rename_i h0
        rw [Nat.digits_of_lt 10 n h0 h]
        rfl
    · rename_i h
      rw [ih (n / 10) (by omega)]
      unfold decimalNat
      rw [if_neg (by omega), if_neg (by omega), Nat.digits_def' (by norm_num : 1 < 10) (by omega : 0 < n)]
      simp

theorem showInt_eq (v : Int) : showInt v = decimal v := by
  unfold showInt decimal
  rw [showNat_eq]

theorem printRectangle_eq (depth : Nat) (g : Geometry) (a b : Coord) (ha : g.coords[0]? = some a) (hb : g.coords[2]? = some b) :
    printRectangle g depth = .ok (rectangleText depth g a b) := by
  unfold printRectangle
  rw [ha, hb]
  dsimp only
  refine congrArg Res.ok ?_
  have e1 : ∀ s, Printer.lit s = bytes s := fun _ => rfl
  have e : 4 * (depth + 1) = 4 * depth + 4 := by omega
  unfold rectangleText indented point geometryDataStr format spaces
  rw [e]
  simp only [List.flatMap_cons, List.flatMap_nil, showInt_eq, e1, List.getElem?_cons_succ, List.getElem?_cons_zero, Nat.reduceSub, Option.getD_some]
  simp [bytes]

/-- **C55** `PrintGeometry` writes, for a rectangle with at least three coordinates, the layer, the box, the type and the first
and third coordinate in the layout of `rectangleText`; with fewer than three it is undefined; for a null pointer it writes
only a message to the error stream; and for every other geometry nothing at all. -/
theorem C55_print (depth : Nat) (g : Geometry) :
    printGeometry none depth = .ok { err := bytes "Invalid Geometry\n" } ∧
    (g.type ≠ .rectangle → printGeometry (some g) depth = .ok {}) ∧
    (g.type = .rectangle → ∀ a b c rest, g.coords = a :: b :: c :: rest →
      printGeometry (some g) depth = .ok { out := rectangleText depth g a c }) ∧
    (g.type = .rectangle → g.coords.length < 3 → printGeometry (some g) depth = .ub) := by
  refine ⟨rfl, fun h => ?_, fun h a b c rest hc => ?_, fun h hc => ?_⟩
  · unfold printGeometry
    dsimp only
    split
    · rename_i ht; exact absurd ht h
    · rfl
  · unfold printGeometry
    dsimp only
    rw [h]
    dsimp only
    rw [printRectangle_eq depth g a c (by rw [hc]; rfl) (by rw [hc]; rfl)]
    rfl
  · unfold printGeometry
    dsimp only
    rw [h]
    dsimp only
    have : printRectangle g depth = .ub := by
      unfold printRectangle
      have : g.coords[2]? = none := List.getElem?_eq_none (by omega)
      rw [this]
      cases g.coords[0]? <;> rfl
    rw [this]
    rfl

theorem decimal_inj {v w : Int} (h : decimal v = decimal w) : v = w := by
  have hd : ∀ n m, decimalNat n = decimalNat m → n = m := by
    intro n m h
    rw [← Msk.decimalNat_value n, h, Msk.decimalNat_value]
  have hne : ∀ n m, 45 :: decimalNat n ≠ decimalNat m := by
    intro n m h
    have := (Msk.decimalNat_digits m).2 45 (by rw [← h]; simp)
    unfold IsDig at this
    exact absurd this.1 (by decide)
  unfold decimal at h
  split at h <;> split at h
  · rw [List.cons.injEq] at h
    have := hd _ _ h.2
    omega
  · exact absurd h (hne _ _)
  · exact absurd h.symm (hne _ _)
  · have := hd _ _ h
    omega

/-- a number followed by a character that no number contains -/
theorem decimal_peel {v w : Int} {c : UInt8} (hc : c.toNat < 45 ∨ 57 < c.toNat) {s t : List UInt8} (h : decimal v ++ c :: s = decimal w ++ c :: t) :
    v = w ∧ s = t := by
  have hch : ∀ v, ∀ x ∈ decimal v, 45 ≤ x.toNat ∧ x.toNat ≤ 57 := by
    intro v x hx
    refine ⟨Msk.decimal_chars v x hx, ?_⟩
    have key : ∀ c ∈ decimalNat v.natAbs, c.toNat ≤ 57 := fun c hc => ((Msk.decimalNat_digits v.natAbs).2 c hc).2
    unfold decimal at hx
    split at hx
    · rcases List.mem_cons.mp hx with rfl | hx
      · decide
      · exact key x hx
    · exact key x hx
  have gen : ∀ (p q : List UInt8), c ∉ p → c ∉ q → p ++ c :: s = q ++ c :: t → p = q ∧ s = t := by
    intro p
    induction p with
    | nil =>
      intro q _ hq h
      cases q with
      | nil => simpa using h
      | cons y q => simp only [List.nil_append, List.cons_append, List.cons.injEq] at h; exact absurd h.1 (by rintro rfl; simp at hq)
    | cons x p ih =>
      intro q hp hq h
      cases q with
      | nil => simp only [List.nil_append, List.cons_append, List.cons.injEq] at h; exact absurd h.1 (by rintro rfl; simp at hp)
      | cons y q =>
        simp only [List.cons_append, List.cons.injEq] at h
        obtain ⟨rfl, h⟩ := h
        obtain ⟨h1, h2⟩ := ih q (by simp at hp; exact hp.2) (by simp at hq; exact hq.2) h
        exact ⟨by rw [h1], h2⟩
  have hn : ∀ v, c ∉ decimal v := by
    intro v hm
    have := hch v c hm
    omega
  obtain ⟨h1, h2⟩ := gen _ _ (hn v) (hn w) h
  exact ⟨decimal_inj h1, h2⟩

theorem coord_ext {p q : Coord} (h1 : p.x = q.x) (h2 : p.y = q.y) : p = q := by
  cases p; cases q; dsimp only at h1 h2; rw [h1, h2]

/-- a labelled number on a line -/
theorem peel_number {n : Nat} {l : List UInt8} {v w : Int} {s t : List UInt8}
    (h : indented n (l ++ decimal v) ++ s = indented n (l ++ decimal w) ++ t) : v = w ∧ s = t := by
  unfold indented at h
  simp only [List.append_assoc, List.append_cancel_left_eq] at h
  exact decimal_peel (c := 10) (by decide) h

/-- a labelled point on a line -/
theorem peel_point {n : Nat} {l : List UInt8} {p q : Coord} {s t : List UInt8}
    (h : indented n (l ++ point p) ++ s = indented n (l ++ point q) ++ t) : p = q ∧ s = t := by
  unfold indented point at h
  simp only [List.append_assoc, List.append_cancel_left_eq] at h
  obtain ⟨h1, h⟩ := decimal_peel (c := 44) (by decide) h
  have h := List.append_cancel_left (as := [32]) h
  obtain ⟨h2, h⟩ := decimal_peel (c := 125) (by decide) h
  exact ⟨coord_ext h1 h2, List.append_cancel_left (as := [10]) h⟩

/-- **C55** The text identifies what it shows: rectangles printed alike (at the same depth) have the same layer, box, type and
corners. -/
theorem C55_injective (depth : Nat) (g h : Geometry) (a b c d : Coord) (he : rectangleText depth g a b = rectangleText depth h c d) :
    g.layer = h.layer ∧ g.min = h.min ∧ g.max = h.max ∧ g.rectType = h.rectType ∧ a = c ∧ b = d := by
  unfold rectangleText at he
  simp only [List.append_assoc] at he
  have he := List.append_cancel_left (List.append_cancel_left he)
  obtain ⟨h1, he⟩ := peel_number he
  obtain ⟨h2, he⟩ := peel_point he
  obtain ⟨h3, he⟩ := peel_point he
  have he := List.append_cancel_left (List.append_cancel_left he)
  obtain ⟨h4, he⟩ := peel_number he
  obtain ⟨h5, he⟩ := peel_point he
  obtain ⟨h6, _⟩ := peel_point he
  exact ⟨h1, h2, h3, h4, h5, h6⟩

/-- C55 at work. -/
example : printGeometry (some { type := .rectangle, layer := 7, min := ⟨-1, 0⟩, max := ⟨4, 30⟩, coords := [⟨-1, 30⟩, ⟨4, 30⟩, ⟨4, 0⟩] }) 0 =
    .ok { out := bytes ("Rectangle{\n    Geometry {\n      Layer = 7\n      Min = {-1, 0}\n      Max = {4, 30}\n      }\n\n" ++
      "  Type 0\n  LeftTop = {-1, 30}\n  RightBot = {4, 0}\n}\n") } := by
  decide +kernel

end Verif.Props
