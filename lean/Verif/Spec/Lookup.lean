import Verif.Spec.FileHistory
import Verif.Spec.BitMatrixRatio
import Verif.Spec.Client

/-! Specification vocabulary for C74. -/

namespace Verif.Spec.FileHistory
open Verif.Spec

/-- the file holds a bitmap of the size of `q` that differs from it in at most every ten thousandth cell -/
def Matching (canRead : List UInt8 → Bool) (disk : List UInt8 → Entry) (q : BitMatrix) (name : List UInt8) : Prop :=
  name ≠ [] ∧ canRead name = true ∧ ∃ m, disk name = .holds m ∧ m.isize = q.isize ∧ m.jsize = q.jsize ∧
    diffCount m q * 10000 ≤ q.isize * q.jsize

/-- the centre of cell `c` lies in a rectangle of the first list, and the cell is not near any rectangle of the second -/
def OnlyInFirst (mn mx : Coord) (R C : Nat) (rs rs' : List Msk.Rect) (c : Nat × Nat) : Prop :=
  c.1 < R ∧ c.2 < C ∧
  (∃ r ∈ rs, InRect (Client.lt r) (Client.rb r) (centreX (Client.window mn mx) C c.2) (centreY (Client.window mn mx) R c.1)) ∧
  ∀ r ∈ rs', ¬ NearRect (Client.window mn mx) R C (Client.lt r) (Client.rb r) c.1 c.2

end Verif.Spec.FileHistory
