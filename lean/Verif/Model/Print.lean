import Verif.Model.BitMatrix

/-! Model of `BitMatrix::Print`, src/Common/Impl/BitMatrix/BitMatrix.cpp:267-278. -/

namespace Verif.BitMatrix

/-- One row: the bits as `0`/`1` and a line feed, BitMatrix.cpp:271-275. -/
def printRow (m : BitMatrix) (i : Nat) : Res (List UInt8) := do
  let bits ← (List.range m.jsize).mapM fun j => do
    let b ← unsafeGet m i j
    pure (if b then (49 : UInt8) else 48)
  pure (bits ++ [10])

/-- `BitMatrix::Print`, BitMatrix.cpp:267-278: the bytes written to standard output (the stream is assumed not
to fail). -/
def print (m : BitMatrix) : Res (List UInt8) := do
  let rows ← (List.range m.isize).mapM fun i => printRow m i
  pure (rows.flatten ++ [10])

end Verif.BitMatrix
