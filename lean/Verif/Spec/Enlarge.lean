import Verif.Spec.Zond

/-! Specification vocabulary for C72: a rectangle that contains another. -/

namespace Verif.Spec
open Verif

/-- every point of the rectangle `lt`, `rb` is a point of the rectangle `lt'`, `rb'` -/
structure Contains (lt' rb' lt rb : Coord) : Prop where
  left : lt'.x ≤ lt.x
  right : rb.x ≤ rb'.x
  top : lt.y ≤ lt'.y
  bottom : rb'.y ≤ rb.y

/-- Of `n` cells (of unit length), `j` is not the last one, the first rectangle ends (at `e`) in the second half of the cell
before `j`, and the second one ends (at `e'`) in the first half of `j`, more than `t` before its centre. -/
def Slips (e e' t : ℚ) (n j : Nat) : Prop :=
  j + 1 < n ∧ (j : ℚ) - 1 / 2 ≤ e ∧ e < j ∧ (j : ℚ) ≤ e' ∧ e' + t < j + 1 / 2

end Verif.Spec
