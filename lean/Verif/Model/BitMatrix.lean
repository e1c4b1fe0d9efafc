import Verif.Model.Vector2D
import Verif.Model.ByteHandler

/-!
Model of `src/Common/Impl/BitMatrix/BitMatrix.cpp` and `src/Common/Include/BitMatrix.h`
(ratios and `==` are in `Verif/Model/BitMatrixRatio.lean`).
-/

namespace Verif

/-- `class BitMatrix`, Include/BitMatrix.h:24-27: packed rows and the two dimensions. -/
structure BitMatrix where
  bitmap : V2 UInt8
  isize : Nat
  jsize : Nat
deriving DecidableEq, Repr

namespace BitMatrix
open ByteHandler

/-- Bytes per row, BitMatrix.cpp:43 and 389: `(J % 8) ? J/8 + 1 : J/8`. -/
def bytesPerRow (j : Nat) : Nat := if j % 8 ≠ 0 then j / 8 + 1 else j / 8

/-- `BitMatrix()`, Include/BitMatrix.h. -/
def empty : BitMatrix := ⟨[], 0, 0⟩

/-- `BitMatrix::Reset`, BitMatrix.cpp:521-526. -/
def reset (_ : BitMatrix) : BitMatrix := ⟨[], 0, 0⟩

/-- `BitMatrix(size_t RowCnt, size_t ColCnt)`, BitMatrix.cpp:35-52: allocation exceptions are caught and
the object is reset. -/
def new (al : Alloc) (r c : Nat) : BitMatrix :=
  match V2.resize (0 : UInt8) al r (bytesPerRow c) [] with
  | .ok _ d => ⟨d, r, c⟩
  | _ => ⟨[], 0, 0⟩

/-- `BitMatrix(const BitMatrix&)`, BitMatrix.cpp:18-32.  `fail` = the copy's allocation throws. -/
def copyNew (fail : Bool) (rhs : BitMatrix) : BitMatrix :=
  if fail then ⟨[], 0, 0⟩ else ⟨rhs.bitmap, rhs.isize, rhs.jsize⟩

/-- `operator=(const BitMatrix&)`, BitMatrix.cpp:71-82 (allocation succeeding; self-assignment returns
early, which coincides). -/
def assign (rhs : BitMatrix) : M BitMatrix Unit := fun _ => .ok () ⟨rhs.bitmap, rhs.isize, rhs.jsize⟩

/-- `BitMatrix(BitMatrix&&)`, BitMatrix.cpp:55-61: result and the state of the moved-from object. -/
def moveNew (rhs : BitMatrix) : BitMatrix × BitMatrix :=
  (⟨rhs.bitmap, rhs.isize, rhs.jsize⟩, { rhs with bitmap := [] })

/-- `operator=(BitMatrix&&)` with two distinct objects, BitMatrix.cpp:85-93: target and moved-from. -/
def moveAssign (rhs : BitMatrix) : BitMatrix × BitMatrix :=
  (⟨rhs.bitmap, rhs.isize, rhs.jsize⟩, { rhs with bitmap := [] })

/-- `BitMatrix::operator!`, BitMatrix.cpp:135-141. -/
def opNot (m : BitMatrix) : Bool :=
  if V2.opNot m.bitmap then true
  else if m.isize = 0 ∨ m.jsize = 0 then true
  else false

/-- `BitMatrix::Get`, BitMatrix.cpp:144-156. -/
def get (m : BitMatrix) (i j : Nat) : Res Bool :=
  if m.isize ≤ i ∨ m.jsize ≤ j then .throw .runtimeError
  else do
    let b ← V2.read m.bitmap i (j / 8)
    getBit b (8 - 1 - j % 8)

/-- `BitMatrix::UnsafeGet`, BitMatrix.cpp:159-165. -/
def unsafeGet (m : BitMatrix) (i j : Nat) : Res Bool := do
  let b ← V2.read m.bitmap i (j / 8)
  pure ((b.toNat &&& BIT (8 - 1 - j % 8)) >>> (8 - 1 - j % 8) != 0)

/-- Replace the byte at `(i,j)`; UB if there is none (the proxies of `Vector2D`). -/
def writeByte (i j : Nat) (f : UInt8 → Res UInt8) : M BitMatrix Unit := fun m =>
  match V2.read m.bitmap i j with
  | .ub => .ub
  | .throw e => .throw e m
  | .ok b =>
    match f b with
    | .ub => .ub
    | .throw e => .throw e m
    | .ok b' =>
      match V2.write m.bitmap i j b' with
      | .ok d => .ok () { m with bitmap := d }
      | .throw e => .throw e m
      | .ub => .ub

/-- `BitMatrix::Set`, BitMatrix.cpp:182-196. -/
def set (i j : Nat) (v : Bool) : M BitMatrix Unit := fun m =>
  if m.isize ≤ i ∨ m.jsize ≤ j then .throw .runtimeError m
  else writeByte i (j / 8) (fun b => setBit b (8 - 1 - j % 8) v) m

/-- `BitMatrix::SetByte`, BitMatrix.cpp:199-208 (`||` short-circuits, so `ColCount()` is evaluated only
when the row exists; the column check uses `>`). -/
def setByte (i j : Nat) (v : UInt8) : M BitMatrix Unit := fun m =>
  if V2.rowCount m.bitmap ≤ i then .throw .invalidArgument m
  else match V2.colCount m.bitmap with
    | .ok c => if c < j then .throw .invalidArgument m else writeByte i j (fun _ => .ok v) m
    | .throw e => .throw e m
    | .ub => .ub

/-- `BitMatrix::UnsafeSet`, BitMatrix.cpp:211-225. -/
def unsafeSet (i j : Nat) (v : Bool) : M BitMatrix Unit :=
  writeByte i (j / 8) fun b =>
    if v then .ok (orAssign b (BIT (8 - 1 - j % 8)))
    else .ok (andAssign b (not32 (BIT (8 - 1 - j % 8))))

/-- `BitMatrix::UnsafeSetByte`, BitMatrix.cpp:228-242 (protected, not called anywhere). -/
def unsafeSetByte (i j : Nat) (v : Bool) : M BitMatrix Unit :=
  writeByte i j fun _ => if v then .ok 0xFF else .ok 0

/-- `BitMatrix::SetRange`, BitMatrix.cpp:245-263: inclusive loops, ends checked with `>`. -/
def setRange (i0 j0 i1 j1 : Nat) (v : Bool) : M BitMatrix Unit := fun m =>
  if i1 < i0 ∨ m.isize < i1 then .throw .runtimeError m
  else if j1 < j0 ∨ m.jsize < j1 then .throw .runtimeError m
  else (M.loop i0 (i1 + 1 - i0) fun i => M.loop j0 (j1 + 1 - j0) fun j => unsafeSet i j v) m

/-- `BitMatrix::Ones`, BitMatrix.cpp:344-348 (`Isize - 1` wraps for 0). -/
def ones : M BitMatrix Unit := fun m => setRange 0 0 (subSz m.isize 1) (subSz m.jsize 1) true m

/-- `BitMatrix::Zeros`, BitMatrix.cpp:351-361 (`ColCount()` is evaluated inside the row loop only). -/
def zeros : M BitMatrix Unit := fun m =>
  (M.loop 0 (V2.rowCount m.bitmap) fun i => fun m' =>
    match V2.colCount m'.bitmap with
    | .ok c => (M.loop 0 c fun j => writeByte i j (fun _ => .ok 0)) m'
    | .throw e => .throw e m'
    | .ub => .ub) m

/-- Loop state of `Randm`: the matrix and the number of values drawn from the engine so far. -/
structure RandSt where
  m : BitMatrix
  drawn : Nat

/-- Loop body of `Randm`, BitMatrix.cpp:372-373: draw one value, write the cell.  `draw k` is the k-th output
of the (already seeded) engine. -/
def randStep (draw : Nat → Nat) (i j : Nat) : M RandSt Unit := fun s =>
  let val := draw s.drawn % 2 == 0
  match unsafeSet i j val s.m with
  | .ok _ m' => .ok () ⟨m', s.drawn + 1⟩
  | .throw e m' => .throw e ⟨m', s.drawn + 1⟩
  | .ub => .ub

/-- `BitMatrix::Randm`, BitMatrix.cpp:363-377.  `engine seed k` is the k-th output of the Mersenne twister
seeded with `seed`; the standard library's generator is not modelled, so `engine` is an arbitrary function.
`now` is what `std::time(nullptr)` returned. -/
def randm (engine : Nat → Nat → Nat) (now : Nat) : M BitMatrix Unit := fun m =>
  match (M.loop 0 m.isize fun i => M.loop 0 m.jsize fun j => randStep (engine now) i j) ⟨m, 0⟩ with
  | .ok _ s => .ok () s.m
  | .throw e s => .throw e s.m
  | .ub => .ub

/-- `BitMatrix::Resize`, BitMatrix.cpp:379-391: `Reset`, set the dimensions, then allocate. -/
def resize (al : Alloc) (r c : Nat) : M BitMatrix Unit := fun m =>
  if r = 0 ∨ c = 0 then .throw .runtimeError m
  else
    match V2.resize (0 : UInt8) al r (bytesPerRow c) [] with
    | .ok _ d => .ok () ⟨d, r, c⟩
    | .throw e d => .throw e ⟨d, r, c⟩
    | .ub => .ub

/-- `operator^`, BitMatrix.cpp:96-114. -/
def xor (al : Alloc) (a b : BitMatrix) : Res BitMatrix :=
  if a.jsize ≠ b.jsize ∨ a.isize ≠ b.isize then .throw .invalidArgument
  else
    let result := new al a.isize a.jsize
    if opNot result then .throw .runtimeError
    else
      Out.toRes ((M.loop 0 (V2.rowCount a.bitmap) fun i => fun m =>
        match V2.colCount a.bitmap with
        | .ok c => (M.loop 0 c fun j => fun m =>
            match V2.read a.bitmap i j, V2.read b.bitmap i j with
            | .ok x, .ok y => writeByte i j (fun _ => .ok (x ^^^ y)) m
            | _, _ => .ub) m
        | .throw e => .throw e m
        | .ub => .ub) result)

/-- Little-endian bytes of an 8-byte object (`reinterpret_cast<const uint8_t*>(&Isize)`). -/
def le64 (n : Nat) : List UInt8 := (List.range 8).map fun k => UInt8.ofNat (n / 256 ^ k)

/-- `BitMatrix::SerializeSizes`, BitMatrix.cpp:412-437. -/
def serializeSizes (m : BitMatrix) : Res (List UInt8) :=
  if opNot m then .throw .runtimeError
  else .ok (8 :: le64 m.isize ++ 8 :: le64 m.jsize)

/-- Loop state of `SerializeMatrix`: emitted bytes, `bitCnt`, `currValue`. -/
structure SerSt where
  out : List UInt8
  bitCnt : Nat
  cur : UInt8
deriving DecidableEq, Repr

/-- Body of the inner loop, BitMatrix.cpp:453-460. -/
def serStep (m : BitMatrix) (i j : Nat) : M SerSt Unit := fun s =>
  match unsafeGet m i j with
  | .ub => .ub
  | .throw e => .throw e s
  | .ok bit =>
    match setBit s.cur s.bitCnt bit with
    | .ub => .ub
    | .throw e => .throw e s
    | .ok cur =>
      if 8 = s.bitCnt + 1 then .ok () ⟨s.out ++ [cur], 0, 0⟩
      else .ok () ⟨s.out, s.bitCnt + 1, cur⟩

/-- `BitMatrix::SerializeMatrix`, BitMatrix.cpp:440-465. A partial last byte is never pushed. -/
def serializeMatrix (m : BitMatrix) : Res (List UInt8) :=
  if opNot m then .throw .runtimeError
  else
    match (M.loop 0 m.isize fun i => M.loop 0 m.jsize fun j => serStep m i j) ⟨[], 0, 0⟩ with
    | .ok _ s => .ok s.out
    | .throw e _ => .throw e
    | .ub => .ub

/-- `BitMatrix::Serialize`, BitMatrix.cpp:394-409. -/
def serialize (m : BitMatrix) : Res (List UInt8) :=
  if opNot m then .throw .runtimeError
  else do
    let sizes ← serializeSizes m
    let matr ← serializeMatrix m
    pure (sizes ++ matr)

/-- Reading `cnt` bytes into the object representation of a zero-initialised `size_t`
(BitMatrix.cpp:479-485 and 490-496): `pBuf[i] = *iter++`.  Writing `pBuf[8]` or reading past the buffer is
UB.  Returns the value and the new iterator position. -/
def readSize (buf : List UInt8) (cnt : Nat) (it : Nat) : Res (Nat × Nat) :=
  if 8 < cnt then .ub
  else if buf.length < it + cnt then .ub
  else .ok ((((buf.drop it).take cnt).zipIdx.map fun p => p.1.toNat * 256 ^ p.2).sum, it + cnt)

/-- Loop state of `DeserializeMatrix`: result, iterator, `bitCnt`. -/
structure DesSt where
  m : BitMatrix
  it : Nat
  bitCnt : Nat
deriving DecidableEq, Repr

/-- Loop body, BitMatrix.cpp:505-512. -/
def desStep (buf : List UInt8) (i j : Nat) : M DesSt Unit := fun s =>
  match Res.idx buf s.it with
  | .ub => .ub
  | .throw e => .throw e s
  | .ok b =>
    match getBit b s.bitCnt with
    | .ub => .ub
    | .throw e => .throw e s
    | .ok v =>
      match set i j v s.m with
      | .ub => .ub
      | .throw e m' => .throw e { s with m := m' }
      | .ok _ m' =>
        if 8 = s.bitCnt + 1 then .ok () ⟨m', s.it + 1, 0⟩
        else .ok () ⟨m', s.it, s.bitCnt + 1⟩

/-- `BitMatrix::DeserializeMatrix`, BitMatrix.cpp:468-516.  `rowByteCnt` is used for both sizes;
`colByteCnt` is read (so it must exist) but not used.  Simplification: overlong `pBuf` writes
(`rowByteCnt > 8`) are UB as a whole. -/
def deserialize (al : Alloc) (buf : List UInt8) : Res BitMatrix :=
  match buf with
  | [] => .throw .invalidArgument
  | b0 :: _ => do
    let rowByteCnt := b0.toNat
    let (iSize, it1) ← readSize buf rowByteCnt 1
    let _colByteCnt ← Res.idx buf it1
    let (jSize, it2) ← readSize buf rowByteCnt (it1 + 1)
    match (M.loop 0 iSize fun i => M.loop 0 jSize fun j => desStep buf i j)
        ⟨new al iSize jSize, it2, 0⟩ with
    | .ok _ s => .ok s.m
    | .throw e _ => .throw e
    | .ub => .ub

/-- Loop state of `FromString`: matrix and `strIndex`. -/
structure FsSt where
  m : BitMatrix
  strIndex : Nat
deriving DecidableEq, Repr

/-- Loop body of `FromString`, BitMatrix.cpp:542. -/
def fsStep (str : List UInt8) (i j : Nat) : M FsSt Unit := fun s =>
  match Res.idx str s.strIndex with
  | .ub => .ub
  | .throw e => .throw e s
  | .ok b =>
    match setByte i j b s.m with
    | .ub => .ub
    | .throw e m' => .throw e { s with m := m' }
    | .ok _ m' => .ok () ⟨m', (s.strIndex + 1) % 2 ^ 32⟩

/-- `n / 8 + (n % 8 != 0)`, BitMatrix.cpp:538,540. -/
def ceil8 (n : Nat) : Nat := n / 8 + (if n % 8 ≠ 0 then 1 else 0)

/-- `BitMatrix::FromString`, BitMatrix.cpp:529-546.  `RowCnt*ColCnt` is a 32-bit product (wraps). -/
def fromString (al : Alloc) (str : List UInt8) (r c : Nat) : Res BitMatrix :=
  if str.length ≠ (r * c) % 2 ^ 32 then .throw .invalidArgument
  else
    match (M.loop 0 (ceil8 r) fun i => M.loop 0 (ceil8 c) fun j => fsStep str i j)
        ⟨new al r c, 0⟩ with
    | .ok _ s => .ok s.m
    | .throw e _ => .throw e
    | .ub => .ub

end BitMatrix
end Verif
