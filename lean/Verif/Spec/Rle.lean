import Mathlib.Data.List.Chain

/-! Specification vocabulary for C26–C28: what a run-length code means. -/

namespace Verif.Spec

/-- value of a run byte: the top bit -/
def runVal (b : UInt8) : Bool := decide (128 ≤ b.toNat)

/-- length of a run byte: the low seven bits -/
def runLen (b : UInt8) : Nat := b.toNat % 128

/-- the bits denoted by a run-length code -/
def expand : List UInt8 → List Bool
  | [] => []
  | b :: bs => List.replicate (runLen b) (runVal b) ++ expand bs

/-- the cells of an `r × c` grid, row by row -/
def rowMajor (r c : Nat) (f : Nat → Nat → Bool) : List Bool :=
  (List.range (r * c)).map fun n => f (n / c) (n % c)

/-- the bits of a string, most significant bit of each byte first -/
def msbBits (s : List UInt8) : List Bool :=
  s.flatMap fun b => [7, 6, 5, 4, 3, 2, 1, 0].map b.toNat.testBit

/-- the byte of a run -/
def runByte (v : Bool) (n : Nat) : UInt8 := UInt8.ofNat (n + if v then 128 else 0)

/-- the maximal runs of some list of bits: values alternate, lengths are positive -/
structure Runs (rs : List (Bool × Nat)) : Prop where
  pos : ∀ r ∈ rs, 0 < r.2
  alternate : rs.IsChain fun a b => a.1 ≠ b.1

/-- the bits a list of runs stands for -/
def runsBits (rs : List (Bool × Nat)) : List Bool := rs.flatMap fun r => List.replicate r.2 r.1

/-- the code of a list of runs: as many full bytes as possible, then one for the rest (which may be 0) -/
def runsCode (rs : List (Bool × Nat)) : List UInt8 :=
  rs.flatMap fun r => List.replicate (r.2 / 127) (runByte r.1 127) ++ [runByte r.1 (r.2 % 127)]

end Verif.Spec
