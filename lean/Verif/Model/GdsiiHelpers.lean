import Verif.Model.Fl

/-!
Model of `src/Common/Impl/LayoutReader/Helpers/GDSIIHelperFunctions.cpp` and of the unions of
`src/Common/Include/GDSIITypes.hpp:107-120`.

Integers are bit vectors; the host is little endian (`byteArray[0]` is the low byte).  A `double` that holds raw file
bytes is the list of its eight bytes in memory order.
-/

namespace Verif.Gds

/-- `u.byteArray[i]` -/
def byte {n : Nat} (v : BitVec n) (i : Nat) : BitVec 8 := v.extractLsb' (8 * i) 8

/-- `UNION_WORD::value` with the given `byteArray`. -/
def word (b0 b1 : BitVec 8) : BitVec 16 := b1 ++ b0

/-- `UNION_DWORD::value` with the given `byteArray`. -/
def dword (b0 b1 b2 b3 : BitVec 8) : BitVec 32 := b3 ++ (b2 ++ (b1 ++ b0))

/-- `Normalize_WORD`, GDSIIHelperFunctions.cpp:7-23.  The compound assignments compute in `int` and convert back to
`int16_t` modulo 2^16. -/
def normalizeWord (value : BitVec 16) : BitVec 16 :=
  let tempByte := byte value 1
  let v := word tempByte (byte value 0)
  if v &&& 0x8000#16 ≠ 0 then
    let v := v &&& 0x7fff#16
    let v := v ^^^ 0x7fff#16
    let v := v + 1#16
    v * (-1)
  else v

/-- `DeNormalize_WORD`, GDSIIHelperFunctions.cpp:25-33 (the loop runs once). -/
def deNormalizeWord (value : BitVec 16) : BitVec 16 :=
  word (byte value 1) (byte value 0)

/-- `Normalize_DWORD`, GDSIIHelperFunctions.cpp:35-54: `_value += 1` on `int32_t` overflows for `0x7fffffff`; the
product with -1 never does (its operand is positive). -/
def normalizeDword (value : BitVec 32) : Res (BitVec 32) :=
  let v := dword (byte value 3) (byte value 2) (byte value 1) (byte value 0)
  if v &&& 0x80000000#32 ≠ 0 then
    let v := v &&& 0x7fffffff#32
    let v := v ^^^ 0x7fffffff#32
    if v.toInt + 1 ≤ 2147483647 then
      let v := v + 1#32
      if -2147483648 ≤ v.toInt * -1 ∧ v.toInt * -1 ≤ 2147483647 then .ok (v * (-1)) else .ub
    else .ub
  else .ok v

/-- `DeNormalize_DWORD`, GDSIIHelperFunctions.cpp:56-68. -/
def deNormalizeDword (value : BitVec 32) : BitVec 32 :=
  dword (byte value 3) (byte value 2) (byte value 1) (byte value 0)

/-- The loop of `Normalize_DOUBLE`, GDSIIHelperFunctions.cpp:80-83. -/
def mantissaLoop (rnd : ℚ → ℚ) (bytes : List UInt8) : Fl :=
  bytes.foldl (fun m b => Fl.add rnd (Fl.mul rnd m (.fin 0x100)) (.fin b.toNat)) (.fin 0)

/-- `pow((double)2, n)` and `pow((double)16, n)`: exact for the exponents used. -/
def powFl (base : ℚ) (n : Int) : Fl := .fin (base ^ n)

/-- `Normalize_DOUBLE`, GDSIIHelperFunctions.cpp:70-91, on the eight bytes of the value; other lists do not occur. -/
def normalizeDouble (rnd : ℚ → ℚ) (bytes : List UInt8) : Res Fl :=
  match bytes with
  | [b0, b1, b2, b3, b4, b5, b6, b7] =>
    let realSign := b0.toNat &&& 0x80
    let realExponent : Int := ((b0.toNat &&& 0x7f : Nat) : Int) - 64
    let m := mantissaLoop rnd [b1, b2, b3, b4, b5, b6, b7]
    let m := Fl.div rnd m (powFl 2 (7 * 8))
    let m := Fl.mul rnd m (powFl 16 realExponent)
    .ok (if realSign ≠ 0 then Fl.mul rnd m (.fin (-1)) else m)
  | _ => .ub

/-- `fabs` -/
def fabs : Fl → Fl
  | .fin q => .fin |q|
  | .ninf => .pinf
  | x => x

/-- `fmod(x, 0x100)` for `x ≥ 0` (exact); NaN for an infinity. -/
def fmod256 : Fl → Fl
  | .fin q => .fin (q - 256 * ⌊q / 256⌋)
  | _ => .nan

/-- `(unsigned char)x`: UB when the integer part does not fit. -/
def toU8 : Fl → Res UInt8
  | .fin q => if 0 ≤ Fl.truncQ q ∧ Fl.truncQ q ≤ 255 then .ok (UInt8.ofNat (Fl.truncQ q).toNat) else .ub
  | _ => .ub

/-- The search loop of `DeNormalize_DOUBLE`, GDSIIHelperFunctions.cpp:101-105: `fuel` iterations are left.  Returns the
final `exponent` and `mantissa`.  (`in_num / 16^exponent` may overflow to infinity in the code where the model has a
large number: both compare greater than 1.) -/
def findExponent (rnd : ℚ → ℚ) (inNum : Fl) : Nat → Int → Fl → Int × Fl
  | 0, exponent, mantissa => (exponent, mantissa)
  | fuel + 1, exponent, _ =>
    let mantissa := Fl.div rnd inNum (powFl 16 exponent)
    if Fl.le mantissa (.fin 1) then (exponent, mantissa)
    else findExponent rnd inNum fuel (exponent + 1) mantissa

/-- The inner loop, GDSIIHelperFunctions.cpp:118-119: `n` divisions by `pow(2, 8)`. -/
def shiftDown (rnd : ℚ → ℚ) : Nat → Fl → Fl
  | 0, x => x
  | n + 1, x => shiftDown rnd n (Fl.div rnd x (powFl 2 8))

/-- `DeNormalize_DOUBLE`, GDSIIHelperFunctions.cpp:93-125: the eight bytes of the result.  The literal
`2.2204460492503131e-016` is the `double` 2^-52. -/
def deNormalizeDouble (rnd : ℚ → ℚ) (value : Fl) : Res (List UInt8) :=
  let inNum := fabs value
  let em := if Fl.le (.fin (2 ^ (-52 : Int))) (fabs inNum) then findExponent rnd inNum 128 (-64) (.fin 0) else (0, .fin 0)
  let exponent : Int := em.1 + 64
  let exponent : Nat := if Fl.lt value (.fin 0) then exponent.toNat ||| 0x80 else exponent.toNat
  let mantissa := Fl.mul rnd em.2 (powFl 2 56)
  let b0 := UInt8.ofNat exponent
  [6, 5, 4, 3, 2, 1, 0].foldl (fun acc k => do
    let bs ← acc
    let b ← toU8 (fmod256 (shiftDown rnd k mantissa))
    pure (bs ++ [b])) (.ok [b0])

end Verif.Gds
