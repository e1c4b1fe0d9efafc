import Mathlib.Data.Rat.Defs

/-! Specification vocabulary for C95: how long the stored text of a picture is. -/

namespace Verif.Spec

/-- The number of places where, reading an `R`×`C` picture row by row (the first cell of a row follows the last cell of the row above), a cell
differs from the one before. -/
def changes (R C : Nat) (f : Nat → Nat → Bool) : Nat :=
  (List.range (R * C - 1)).countP fun n => f (n / C) (n % C) != f ((n + 1) / C) ((n + 1) % C)

/-- The picture is a union of `n` boxes, each consisting of the cells of some consecutive rows and columns. -/
def UnionOfBoxes (n R C : Nat) (f : Nat → Nat → Bool) : Prop :=
  ∃ bs : List (Nat × Nat × Nat × Nat), bs.length = n ∧ ∀ i j, i < R → j < C →
    (f i j = true ↔ ∃ b ∈ bs, b.1 ≤ i ∧ i ≤ b.2.1 ∧ b.2.2.1 ≤ j ∧ j ≤ b.2.2.2)

/-- length of the Base64 text of `n` bytes -/
def b64Len (n : Nat) : Nat := 4 * ((n + 2) / 3)

/-- length of a text of `n > 0` characters broken into lines of 76 with two characters between lines -/
def linesLen (n : Nat) : Nat := n + 2 * ((n - 1) / 76)

end Verif.Spec
