import Verif.Model.BitMatrix
import Mathlib.Data.Finset.Card
import Mathlib.Data.Finset.Prod
import Mathlib.Data.Rat.Defs

/-! Specification vocabulary for C09/C10: cell counts seen through `Get`. -/

namespace Verif.Spec

/-- all index pairs of an `r×c` matrix -/
def cells (r c : Nat) : Finset (Nat × Nat) := Finset.range r ×ˢ Finset.range c

/-- Number of cells of `m` that read `v`. -/
def countOf (m : BitMatrix) (v : Bool) : Nat :=
  ((cells m.isize m.jsize).filter fun p => BitMatrix.get m p.1 p.2 = .ok v).card

/-- Number of cells in which two matrices of the size of `a` read differently. -/
def diffCount (a b : BitMatrix) : Nat :=
  ((cells a.isize a.jsize).filter fun p => BitMatrix.get a p.1 p.2 ≠ BitMatrix.get b p.1 p.2).card

end Verif.Spec
