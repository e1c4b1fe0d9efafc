import Verif.Model.BitMatrix
import Verif.Model.Ieee

/-!
Model of the ratio and comparison functions of `src/Common/Impl/BitMatrix/BitMatrix.cpp`.
`rnd` is the rounding of each floating-point operation; the theorems use `rne` (binary64).
-/

namespace Verif

/-- A `double` value: NaN, (positive) infinity or a finite number.  Negative infinity and signed zero do
not occur in the modelled code. -/
inductive Dbl where
  | nan
  | inf
  | fin (q : ℚ)
deriving DecidableEq

namespace Dbl

/-- `a / b` for non-negative finite `a`, `b`. -/
def div (rnd : ℚ → ℚ) (a b : ℚ) : Dbl :=
  if b = 0 then (if a = 0 then .nan else .inf) else .fin (rnd (a / b))

/-- `a >= c` with `c` finite: false for NaN. -/
def ge : Dbl → ℚ → Bool
  | .nan, _ => false
  | .inf, _ => true
  | .fin q, c => decide (c ≤ q)

/-- `a <= c` with `c` finite: false for NaN. -/
def le : Dbl → ℚ → Bool
  | .nan, _ => false
  | .inf, _ => false
  | .fin q, c => decide (q ≤ c)

/-- `1 - a`.  `1 - inf` would be `-inf`; it is mapped to NaN here because `compare` never reaches it
(the XOR result of two matrices is a valid matrix whose cell count fits in memory). -/
def oneMinus (rnd : ℚ → ℚ) : Dbl → Dbl
  | .nan => .nan
  | .inf => .nan
  | .fin q => .fin (rnd (1 - q))

end Dbl

namespace BitMatrix

/-- Body of the loop of `CalcRatio`, BitMatrix.cpp:287-292: `if (UnsafeGet(i,j) == Value) unit++`. -/
def ratioStep (rnd : ℚ → ℚ) (m : BitMatrix) (v : Bool) (i j : Nat) : M ℚ Unit := fun unit =>
  match unsafeGet m i j with
  | .ub => .ub
  | .throw e => .throw e unit
  | .ok b => .ok () (if b = v then rnd (unit + 1) else unit)

/-- `BitMatrix::CalcRatio`, BitMatrix.cpp:277-302; a caught exception gives -1.  The `size_t` product
wraps; its conversion to `double` rounds. -/
def calcRatio (rnd : ℚ → ℚ) (m : BitMatrix) (v : Bool) : Res Dbl :=
  match (M.loop 0 m.isize fun i => M.loop 0 m.jsize fun j => ratioStep rnd m v i j) 0 with
  | .ok _ unit => .ok (Dbl.div rnd unit (rnd (mulSz m.isize m.jsize : ℕ)))
  | .throw _ _ => .ok (.fin (-1))
  | .ub => .ub

/-- `BitMatrix::OneRatio`, BitMatrix.cpp:304-308. -/
def oneRatio (rnd : ℚ → ℚ) (m : BitMatrix) : Res Dbl := calcRatio rnd m true

/-- `BitMatrix::ZeroRatio`, BitMatrix.cpp:311-314. -/
def zeroRatio (rnd : ℚ → ℚ) (m : BitMatrix) : Res Dbl := calcRatio rnd m false

/-- `BitMatrix::Compare`, BitMatrix.cpp:317-339. -/
def compare (rnd : ℚ → ℚ) (al : Alloc) (a b : BitMatrix) : Res Dbl :=
  match xor al a b with
  | .ub => .ub
  | .throw _ => .ok (.fin (-1))
  | .ok x =>
    match oneRatio rnd x with
    | .ub => .ub
    | .throw _ => .ok (.fin (-1))
    | .ok res => if res = .fin (-1) then .ok res else .ok (Dbl.oneMinus rnd res)

/-- `operator==`, BitMatrix.cpp:117-123 (the literal `0.9999` is the rounded double). -/
def opEq (rnd : ℚ → ℚ) (al : Alloc) (a b : BitMatrix) : Res Bool := do
  let c ← compare rnd al a b
  pure (c.ge (rnd (9999 / 10000)))

/-- `operator!=`, BitMatrix.cpp:126-132: not the negation of `==`. -/
def opNe (rnd : ℚ → ℚ) (al : Alloc) (a b : BitMatrix) : Res Bool := do
  let c ← compare rnd al a b
  pure (c.le (rnd (9999 / 10000)))

end BitMatrix
end Verif
