import Verif.Base

/-!
Model of `src/Common/Impl/ByteHandler/ByteHandler.cpp` (all functions) and the macro `BIT` of
`src/Common/Include/ByteHandler.h`.

A `Byte` is `UInt8`; the integer promotions of `|=`, `&=`, `~`, `>>` are computed on `Nat` (32-bit
unsigned operands, truncated to 8 bits on assignment).
-/

namespace Verif.ByteHandler

/-- `BIT(n) = 1U << n` (Include/ByteHandler.h:17); only used with `n ≤ 8`. -/
def BIT (n : Nat) : Nat := 1 <<< n

/-- `~x` for a 32-bit unsigned `x` (used as `~BIT(n)`). -/
def not32 (x : Nat) : Nat := 2 ^ 32 - 1 - x

/-- `b |= x` for `Byte b` (result truncated to 8 bits). -/
def orAssign (b : UInt8) (x : Nat) : UInt8 := UInt8.ofNat (b.toNat ||| x)

/-- `b &= x` for `Byte b`. -/
def andAssign (b : UInt8) (x : Nat) : UInt8 := UInt8.ofNat (b.toNat &&& x)

/-- `ByteHandler::SetBit(Byte &Byte, uint8_t Pos, bool Value)`, ByteHandler.cpp:40-52.
Returns the new byte; the exception is thrown before the byte is touched. -/
def setBit (b : UInt8) (pos : Nat) (v : Bool) : Res UInt8 :=
  if 8 ≤ pos then .throw .invalidArgument
  else match v with
    | true => .ok (orAssign b (BIT pos))
    | false => .ok (andAssign b (not32 (BIT pos)))

/-- `ByteHandler::GetBit(Byte Byte, uint8_t Pos)`, ByteHandler.cpp:68-78. -/
def getBit (b : UInt8) (pos : Nat) : Res Bool :=
  if 8 ≤ pos then .throw .invalidArgument
  else .ok ((b.toNat &&& BIT pos) >>> pos != 0)

/-- The guard of the two array overloads, ByteHandler.cpp:29 and 61.
`arr = none` is a null pointer; `MAX_BIT_POS(ArrSz)` wraps in `size_t`; `sizeof(void*) = 8`. -/
def arrGuardFails (arr : Option (List UInt8)) (arrSz pos : Nat) : Bool :=
  arr.isNone || decide (8 > arrSz) || decide (subSz (mulSz 8 arrSz) 1 < pos)

/-- `ByteHandler::SetBit(Byte *Arr, size_t ArrSz, size_t Pos, bool Value)`, ByteHandler.cpp:22-37.
`byteIndex = ArrSz*8/Pos` (division by zero for `Pos = 0`), `bitIndex = 8 % Pos`;
`case true` has no `break` and falls through into `case false`.
The array is the memory the pointer designates; an index beyond it is UB. -/
def setBitArr (arr : Option (List UInt8)) (arrSz pos : Nat) (v : Bool) : Res (List UInt8) :=
  if arrGuardFails arr arrSz pos then .throw .invalidArgument
  else match arr with
    | none => .ub
    | some a =>
      if pos = 0 then .ub
      else
        let byteIndex := mulSz arrSz 8 / pos
        let bitIndex := 8 % pos
        match a[byteIndex]? with
        | none => .ub
        | some b =>
          let b1 := if v then orAssign b (BIT bitIndex) else b
          .ok (a.set byteIndex (andAssign b1 (not32 (BIT bitIndex))))

/-- `ByteHandler::GetBit(Byte *Arr, size_t ArrSz, size_t Pos)`, ByteHandler.cpp:55-65.
Note `Arr[byteIndex] & bitIndex` (not `BIT(bitIndex)`). -/
def getBitArr (arr : Option (List UInt8)) (arrSz pos : Nat) : Res Bool :=
  if arrGuardFails arr arrSz pos then .throw .invalidArgument
  else match arr with
    | none => .ub
    | some a =>
      if pos = 0 then .ub
      else
        let byteIndex := mulSz arrSz 8 / pos
        let bitIndex := 8 % pos
        match a[byteIndex]? with
        | none => .ub
        | some b => .ok ((b.toNat &&& bitIndex) >>> bitIndex != 0)

/-- The loop `while (x >>= 1) { cnt++; }` of ByteHandler.cpp:86 and 110. `n` is the value before the
shift, the result the number of iterations. -/
def shiftCount (n : Nat) : Nat :=
  if h : n / 2 = 0 then 0 else shiftCount (n / 2) + 1
termination_by n
decreasing_by omega

/-- `ByteHandler::GetHigherBitPos`, ByteHandler.cpp:81-88. -/
def getHigherBitPos (b : UInt8) : UInt8 := UInt8.ofNat (shiftCount b.toNat)

/-- The loop `while (!(Byte & BIT(0))) { Byte >>= 1; cnt++; }`, ByteHandler.cpp:98, for a non-zero byte
(for zero it would not terminate; the caller excludes it, the model returns 0). -/
def lowCount (n : Nat) : Nat :=
  if h : n = 0 then 0
  else if n &&& BIT 0 ≠ 0 then 0 else lowCount (n / 2) + 1
termination_by n
decreasing_by omega

/-- `ByteHandler::GetLowerBitPos`, ByteHandler.cpp:91-100 (`static_cast<uint8_t>(-1)` is 255). -/
def getLowerBitPos (b : UInt8) : UInt8 :=
  if b = 0 then 255 else UInt8.ofNat (lowCount b.toNat)

/-- `ByteHandler::CalcRealByteCnt`, ByteHandler.cpp:103-113. `num` is a `size_t` value. -/
def calcRealByteCnt (num : Nat) : UInt8 :=
  if num ≤ 255 then 1
  else UInt8.ofNat ((UInt8.ofNat (shiftCount num)).toNat / 8 + 1)

end Verif.ByteHandler
