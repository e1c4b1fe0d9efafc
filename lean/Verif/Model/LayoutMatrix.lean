import Verif.Model.Rle
import Verif.Model.Base64

/-!
Model of `src/Common/Impl/LayoutMatrix/LayoutMatrix.cpp` and `src/Common/Include/LayoutMatrix.h`.
`LayoutMatrix` derives from `BitMatrix` without new data members; objects are `BitMatrix` values.
The copy constructor `LayoutMatrix(const LayoutMatrix&)` is declared (LayoutMatrix.h:110) but defined
nowhere, so there is nothing to model (a program using it does not link).
-/

namespace Verif

/-- `struct Coord`, Include/LayoutData.hpp:11-16.  The fields are `int32_t`; the model uses integers and
the theorems that depend on the range say so. -/
structure Coord where
  x : Int
  y : Int
deriving DecidableEq, Repr

/-- value of an ASCII literal -/
def lit (s : String) : List UInt8 := s.toList.map Base64.ch

/-- `struct WorkspaceCoords`, Include/LayoutMatrix.h:32-41. -/
structure Workspace where
  leftTop : Coord
  rightBot : Coord
deriving DecidableEq, Repr

namespace Workspace

/-- `WorkspaceCoords()`, Include/LayoutMatrix.h:41. -/
def new : Workspace := ⟨⟨0, 0⟩, ⟨0, 0⟩⟩

/-- `WorkspaceCoords::SetAngleCoords`, LayoutMatrix.cpp:30-40: result and new object. -/
def setAngleCoords (w : Workspace) (lt rb : Coord) : Bool × Workspace :=
  if lt.x > rb.x ∨ lt.y < rb.y then (false, w) else (true, ⟨lt, rb⟩)

/-- `WorkspaceCoords::isInWorkspace`, LayoutMatrix.cpp:42-54. -/
def isInWorkspace (w : Workspace) (p : Coord) : Bool :=
  if p.x > w.leftTop.x ∧ p.x < w.rightBot.x then
    if p.y < w.leftTop.y ∧ p.y > w.rightBot.y then true else false
  else false

end Workspace

namespace LayoutMatrix
open ByteHandler BitMatrix Base64

/-- What the C++ implementation leaves open and `DecodeSz` depends on: signedness of `char`, and the result
of shifting a 64-bit value by 64 or more bits (`some` = the count is taken modulo 64, as x86-64 and AArch64
instructions do; `none` = undefined behaviour as in the standard). -/
structure Platform where
  charSigned : Bool
  maskedShift : Bool
deriving DecidableEq, Repr

/-- `sectionParameters`, LayoutMatrix.cpp:14. -/
def sectionParameters : List UInt8 := lit "__PARAMETERS__"
/-- `sectionSize`, LayoutMatrix.cpp:15. -/
def sectionSize : List UInt8 := lit "__SIZE__"
/-- `sectionEncodeType`, LayoutMatrix.cpp:16. -/
def sectionEncodeType : List UInt8 := lit "__ENCODE_TYPE__"
/-- `strBegin`, LayoutMatrix.cpp:18. -/
def strBegin : List UInt8 := lit "---------BEGIN_MATRIX---------\r\n"
/-- `strEnd`, LayoutMatrix.cpp:19. -/
def strEnd : List UInt8 := lit "\r\n---------END_MATRIX---------"
/-- `parametersLen`, LayoutMatrix.cpp:21. -/
def parametersLen : Nat :=
  sectionParameters.length + sectionSize.length + 24 + sectionEncodeType.length + 1
/-- `rleBitPos`, LayoutMatrix.cpp:22. -/
def rleBitPos : Nat := 1
/-- `base64BitPos`, LayoutMatrix.cpp:23. -/
def base64BitPos : Nat := 0

/-- `LayoutMatrix(LayoutMatrix&&)`, LayoutMatrix.cpp:62-68: new object and source afterwards (it copies). -/
def moveNewL (rhs : BitMatrix) : BitMatrix × BitMatrix := (⟨rhs.bitmap, rhs.isize, rhs.jsize⟩, rhs)

/-- `LayoutMatrix(BitMatrix&&)`, LayoutMatrix.cpp:70-75: `Jsize` keeps the 0 of the default constructor. -/
def moveNewB (rhs : BitMatrix) : BitMatrix × BitMatrix := (⟨rhs.bitmap, rhs.isize, 0⟩, rhs)

/-- `LayoutMatrix(const BitMatrix&)`, Include/LayoutMatrix.h:101. -/
def copyNewB (fail : Bool) (rhs : BitMatrix) : BitMatrix := BitMatrix.copyNew fail rhs

/-- `operator=(const BitMatrix&)` and `operator=(const LayoutMatrix&)`, LayoutMatrix.cpp:80-109; the two
bodies are the same.  `self` = both sides are the same object. -/
def assignCopy (self : Bool) (lhs rhs : BitMatrix) : BitMatrix :=
  if self then lhs else ⟨rhs.bitmap, rhs.isize, rhs.jsize⟩

/-- `operator=(BitMatrix&&)`, LayoutMatrix.cpp:111-122, distinct objects: target and source afterwards.
`matrix.Bitmap = std::move(matrix.Bitmap)` is a self-move, which empties the vector (libstdc++, libc++). -/
def assignMoveB (_lhs rhs : BitMatrix) : BitMatrix × BitMatrix :=
  (⟨rhs.bitmap, rhs.isize, rhs.jsize⟩, { rhs with bitmap := [] })

/-- `operator=(LayoutMatrix&&)`, LayoutMatrix.cpp:124-131, distinct objects: target and source afterwards. -/
def assignMoveL (_lhs rhs : BitMatrix) : BitMatrix × BitMatrix :=
  (⟨rhs.bitmap, rhs.isize, rhs.jsize⟩, { rhs with bitmap := [] })

/-- `x = std::move(x)` through either move assignment, LayoutMatrix.cpp:111-131: `Reset()` runs first, so
the fields copied afterwards are the reset ones (there is no self test). -/
def selfMove (x : BitMatrix) : BitMatrix := BitMatrix.reset x

/-- `std::string_view::substr(pos, n)`: throws `out_of_range` when `pos > size()`. -/
def substr (s : List UInt8) (pos n : Nat) : Res (List UInt8) :=
  if s.length < pos then .throw .outOfRange else .ok ((s.drop pos).take n)

/-- `std::string_view::substr(pos)`. -/
def substrFrom (s : List UInt8) (pos : Nat) : Res (List UInt8) :=
  if s.length < pos then .throw .outOfRange else .ok (s.drop pos)

/-- `s.find(t) != npos`: `t` starts at some position of `s`. -/
def contains (s t : List UInt8) : Bool :=
  (List.range (s.length + 1)).any fun i => t.isPrefixOf (s.drop i)

/-- `(size_t)c` for a `char`: sign extension when `char` is signed. -/
def charToSize (p : Platform) (c : UInt8) : Nat :=
  if p.charSigned ∧ 128 ≤ c.toNat then 2 ^ 64 - 256 + c.toNat else c.toNat

/-- `w << s` for `size_t w`. -/
def shl64 (p : Platform) (w s : Nat) : Res Nat :=
  if s < 64 then .ok (w * 2 ^ s % 2 ^ 64)
  else if p.maskedShift then .ok (w * 2 ^ (s % 64) % 2 ^ 64)
  else .ub

/-- Loop of `DecodeSz`, LayoutMatrix.cpp:155-158: remaining characters, `offs`, `sz`. -/
def szLoop (p : Platform) : List UInt8 → Nat → Nat → Res Nat
  | [], _, sz => .ok sz
  | c :: cs, offs, sz => do
    let w ← shl64 p (charToSize p c) (offs * 8)
    szLoop p cs (offs + 1) (sz ||| w)

/-- `LayoutMatrix::DecodeSz`, LayoutMatrix.cpp:147-162: `(ColCnt, RowCnt)`. -/
def decodeSz (p : Platform) (s : List UInt8) : Res (UInt32 × UInt32) :=
  if s.length ≠ 16 then .throw .invalidArgument
  else do
    let sz ← szLoop p s 0 0
    .ok (UInt32.ofNat sz, UInt32.ofNat (sz / 2 ^ 32))

/-- `LayoutMatrix::DecodeEncodings`, LayoutMatrix.cpp:165-173: `(Rle, Base64)`, both from `rleBitPos`. -/
def decodeEncodings (c : UInt8) : Res (Bool × Bool) := do
  let r ← getBit c rleBitPos
  let b ← getBit c rleBitPos
  .ok (r, b)

/-- `LayoutMatrix::DecodeHash`, LayoutMatrix.cpp:175-221.  Differences of lengths are `size_t`. -/
def decodeHash (p : Platform) (al : Alloc) (hash : List UInt8) : Res BitMatrix :=
  if hash = [] then .throw .invalidArgument
  else do
    let b ← substr hash 0 strBegin.length
    if b ≠ strBegin then .throw .invalidArgument
    else
    let e ← substr hash (subSz hash.length strEnd.length) strEnd.length
    if e ≠ strEnd then .throw .invalidArgument
    else
    let inner ← substr hash strBegin.length
      (subSz (subSz hash.length strBegin.length) strEnd.length)
    let decoded ← base64Decode inner .radix64
    let params ← substrFrom decoded (subSz decoded.length parametersLen)
    if contains params sectionParameters = false then .throw .invalidArgument
    else
    let params ← substrFrom params sectionParameters.length
    let s ← substr params 0 sectionSize.length
    if s ≠ sectionSize then .throw .invalidArgument
    else
    let params ← substrFrom params sectionSize.length
    let szText ← substr params 0 24
    let sz ← base64Decode szText .standard
    let (colCnt, rowCnt) ← decodeSz p sz
    let params ← substrFrom params 24
    let t ← substr params 0 sectionEncodeType.length
    if t ≠ sectionEncodeType then .throw .invalidArgument
    else
    let params ← substrFrom params sectionEncodeType.length
    let c ← Res.idx params 0
    let (isRle, _isBase64) ← decodeEncodings c
    let payload ← substr decoded 0 (subSz decoded.length parametersLen)
    if isRle then do
      let code ← base64Decode payload .standard
      Rle.decodeMatrix al code rowCnt colCnt
    else do
      let m ← BitMatrix.fromString al payload rowCnt.toNat colCnt.toNat
      .ok (moveNewB m).1

/-- `LayoutMatrix::EncodeSz`, LayoutMatrix.cpp:223-239: eight zero bytes (`std::string(8, 0)`), then the
eight bytes of `ColCnt | RowCnt << 32`. -/
def encodeSz (r c : UInt32) : Res (List UInt8) :=
  base64Encode (List.replicate 8 0 ++ le64 (c.toNat ||| r.toNat * 2 ^ 32)) .standard

/-- `LayoutMatrix::EncodeEncodings`, LayoutMatrix.cpp:241-250. -/
def encodeEncodings (rle base64 : Bool) : Res UInt8 := do
  let v ← if rle then setBit 0 rleBitPos true else .ok 0
  if base64 then setBit v base64BitPos true else .ok v

/-- `LayoutMatrix::EncodeHash`, LayoutMatrix.cpp:252-284.  The row and column counts are narrowed to
`uint32_t`; the unused second `EncodeSz` call has no effect. -/
def encodeHash (m : BitMatrix) : Res (List UInt8) :=
  if opNot m then .throw .invalidArgument
  else do
    let code ← Rle.encode m
    let r ← base64Encode code .standard
    let sz ← encodeSz (UInt32.ofNat m.isize) (UInt32.ofNat m.jsize)
    let t ← encodeEncodings true true
    let r := r ++ sectionParameters ++ sectionSize ++ sz ++ sectionEncodeType ++ [t]
    let r ← base64Encode r .radix64
    .ok (strBegin ++ r ++ strEnd)

/-- `LayoutMatrix::GetHash`, LayoutMatrix.cpp:133-137. -/
def getHash (m : BitMatrix) : Res (List UInt8) := encodeHash m

/-- `LayoutMatrix::InitMatrFromHash`, LayoutMatrix.cpp:139-144. -/
def initMatrFromHash (p : Platform) (al : Alloc) (hash : List UInt8) : M BitMatrix Unit := fun m =>
  match decodeHash p al hash with
  | .ok d => .ok () (assignMoveL m d).1
  | .throw e => .throw e m
  | .ub => .ub

/-- Files by name, and what `std::fstream` can do with them.  `stored` is how many bytes of a written
string reach the file (a full disk or a crash keeps a prefix; `write` and `close` are not checked by the
code).  Text mode is binary (POSIX). -/
structure Fs where
  files : List UInt8 → Option (List UInt8)
  writable : List UInt8 → Bool
  readable : List UInt8 → Bool

/-- `LayoutMatrix::ReadFile`, LayoutMatrix.cpp:288-309, on the object `m`. -/
def readFile (p : Platform) (al : Alloc) (fs : Fs) (name : List UInt8) : M BitMatrix Bool := fun m =>
  if name = [] then .ok false m
  else if fs.readable name = false then .ok false m
  else match fs.files name with
    | none => .ok false m
    | some content =>
      match decodeHash p al content with
      | .ub => .ub
      | .throw e => .throw e m
      | .ok d => if opNot d then .ok false m else .ok true (assignMoveL m d).1

/-- `LayoutMatrix::FlushFile`, LayoutMatrix.cpp:313-328, as a call on the file system: the file is opened
with `trunc` before the matrix is encoded.  `stored` = number of bytes of the hash that reach the disk. -/
def flushFile (m : BitMatrix) (name : List UInt8) (stored : Nat) : M Fs Bool := fun fs =>
  if name = [] then .ok false fs
  else if fs.writable name = false then .ok false fs
  else
    let fs1 : Fs := { fs with files := fun n => if n = name then some [] else fs.files n }
    match encodeHash m with
    | .ub => .ub
    | .throw e => .throw e fs1
    | .ok h => .ok true { fs with files := fun n => if n = name then some (h.take stored) else fs.files n }

end LayoutMatrix
end Verif
