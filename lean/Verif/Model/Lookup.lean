import Verif.Model.LayoutMatrix
import Verif.Model.BitMatrixRatio
import Verif.Model.Ieee

/-!
The program the library is written for, as a client would write it with the library's public calls: look a bitmap up in a
directory of stored ones.  This function is not in the repository; it only composes modelled calls:
`LayoutMatrix::ReadFile` (LayoutMatrix.cpp, `readFile`) and `BitMatrix::operator==` (BitMatrix.cpp:117-123, `opEq`).
-/

namespace Verif.Client
open Verif LayoutMatrix

/-- For each name: read the file into an object (whose old value is `old`), catch exceptions, and keep the name if the read
returned true and the object compares equal to `q`.  `none` = undefined behaviour (or an exception of `==`). -/
def lookup (p : Platform) (fs : Fs) (old q : BitMatrix) : List (List UInt8) → Option (List (List UInt8))
  | [] => some []
  | n :: ns =>
    match readFile p Alloc.ok fs n old with
    | .ub => none
    | .throw _ _ => lookup p fs old q ns
    | .ok false _ => lookup p fs old q ns
    | .ok true m =>
      match BitMatrix.opEq Ieee.rne Alloc.ok m q with
      | .ok true => (lookup p fs old q ns).map (n :: ·)
      | .ok false => lookup p fs old q ns
      | _ => none

end Verif.Client
