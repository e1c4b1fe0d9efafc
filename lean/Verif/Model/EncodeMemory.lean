import Verif.Model.LayoutMatrix

/-!
The explicit `reserve` calls on the way from a bitmap to its text, and the copy of the bitmap that `!` makes:
Impl/RunLengthEncoding/RunLengthEncoding.cpp, Impl/Base64/Base64.cpp, Impl/LayoutMatrix/LayoutMatrix.cpp.  The functions are
those of Rle.lean, Base64.lean and LayoutMatrix.lean with these put in; all other allocations (appending to strings,
temporaries) succeed.
-/

namespace Verif.EncodeMemory
open BitMatrix

/-- which requests `std::string::reserve(n)` can meet; the others throw (`std::bad_alloc`, or `std::length_error`
above `max_size()`) -/
abbrev Grants := Nat → Bool

/-- `s.reserve(n)` -/
def reserve (mem : Grants) (n : Nat) : Res Unit := if mem n = true then .ok () else .throw .badAlloc

/-- `LayoutMatrix::operator!`, Include/LayoutMatrix.h:225-226: applies `BitMatrix::operator!` to a copy.  `copied`: the memory
for the copy was there; if not, the copy constructor (BitMatrix.cpp:18-32) leaves an empty bitmap. -/
def notMatrix (copied : Bool) (m : BitMatrix) : Bool := opNot (BitMatrix.copyNew (!copied) m)

/-- `InCalcApproxEncodedStrLength`, Base64.cpp:58-66, in `size_t` arithmetic (`2 / pemStrLen * 3` is 0). -/
def approxLength (n : Nat) : Nat :=
  if n * 4 % 18446744073709551616 / 3 + 3 < 64 then n * 4 % 18446744073709551616 / 3 + 32 + 8
  else (n * 4 % 18446744073709551616 / 3 + 32 + n * 4 % 18446744073709551616 / 3) % 18446744073709551616

/-- `InBase64Encode`, Base64.cpp:88-127, with the `reserve` of line 97. -/
def encode64 (mem : Grants) (buf : List UInt8) (isUrl : Bool) : Res (List UInt8) :=
  if buf = [] then .throw .invalidArgument
  else do
    reserve mem (approxLength buf.length)
    Base64.encodeLoop isUrl buf

/-- `InBase64EncodeWithSeparator`, Base64.cpp:174-198, with the `reserve` of line 186. -/
def encodeWithSeparator (mem : Grants) (buf sep : List UInt8) (len : Nat) : Res (List UInt8) :=
  if h : sep.length = 0 ∨ len = 0 then .throw .invalidArgument
  else do
    let e ← encode64 mem buf false
    reserve mem (approxLength buf.length)
    .ok (Base64.splitLoop sep len (by omega) e)

/-- `InRadix64Encode`, Base64.cpp:219-232 (as Base64.lean). -/
def radix64Encode (mem : Grants) (s : List UInt8) : Res (List UInt8) :=
  if s = [] then .ok []
  else do
    let e ← encodeWithSeparator mem s Base64.endline 76
    let hash ← Crc32.calcHash (some e) (e.length % 2 ^ 32)
    if hash = 0 then .throw .runtimeError
    else do
      let _ ← encode64 mem (Base64.le32 hash) false
      let h ← encode64 mem (Base64.le32 hash) false
      .ok (e ++ h)

/-- `Rle::Encode(const LayoutMatrix&)`, RunLengthEncoding.cpp:117-156, with the `reserve` of line 124: the number of rows
times the number of *rows*, in `size_t`. -/
def rleEncode (mem : Grants) (copied : Bool) (m : BitMatrix) : Res (List UInt8) :=
  if notMatrix copied m then .ok []
  else do
    reserve mem (m.isize * m.isize % 18446744073709551616)
    Rle.encode m

/-- `Rle::ByteEncode`, RunLengthEncoding.cpp:37-73, with the `reserve` of line 42. -/
def byteEncode (mem : Grants) (str : List UInt8) : Res (List UInt8) := do
  reserve mem str.length
  Rle.byteEncode str

/-- `LayoutMatrix::EncodeSz`, LayoutMatrix.cpp:223-239. -/
def encodeSz (mem : Grants) (r c : UInt32) : Res (List UInt8) :=
  encode64 mem (List.replicate 8 0 ++ le64 (c.toNat ||| r.toNat * 2 ^ 32)) false

/-- `LayoutMatrix::EncodeHash`, LayoutMatrix.cpp:252-284, with the second `EncodeSz` call and the `reserve` of
line 279.  `copied`, `copied2`: the copies made by the `!` of line 255 and by that of `Rle::Encode`. -/
def encodeHash (mem : Grants) (copied copied2 : Bool) (m : BitMatrix) : Res (List UInt8) :=
  if notMatrix copied m then .throw .invalidArgument
  else do
    let code ← rleEncode mem copied2 m
    let r ← encode64 mem code false
    let sz ← encodeSz mem (UInt32.ofNat m.isize) (UInt32.ofNat m.jsize)
    let t ← LayoutMatrix.encodeEncodings true true
    let r := r ++ LayoutMatrix.sectionParameters ++ LayoutMatrix.sectionSize ++ sz ++ LayoutMatrix.sectionEncodeType ++ [t]
    let _ ← encodeSz mem (UInt32.ofNat m.isize) (UInt32.ofNat m.jsize)
    let r ← radix64Encode mem r
    reserve mem (LayoutMatrix.strBegin.length + r.length + LayoutMatrix.strEnd.length)
    .ok (LayoutMatrix.strBegin ++ r ++ LayoutMatrix.strEnd)

/-- `LayoutMatrix::GetHash`, LayoutMatrix.cpp:133-137. -/
def getHash (mem : Grants) (copied copied2 : Bool) (m : BitMatrix) : Res (List UInt8) := encodeHash mem copied copied2 m

/-- `LayoutMatrix::FlushFile`, LayoutMatrix.cpp:313-328 (as LayoutMatrix.lean). -/
def flushFile (mem : Grants) (copied copied2 : Bool) (m : BitMatrix) (name : List UInt8) (stored : Nat) : M LayoutMatrix.Fs Bool := fun fs =>
  if name = [] then .ok false fs
  else if fs.writable name = false then .ok false fs
  else
    let fs1 : LayoutMatrix.Fs := { fs with files := fun n => if n = name then some [] else fs.files n }
    match encodeHash mem copied copied2 m with
    | .ub => .ub
    | .throw e => .throw e fs1
    | .ok h => .ok true { fs with files := fun n => if n = name then some (h.take stored) else fs.files n }

/-- `LayoutMatrix::ReadFile`, LayoutMatrix.cpp:288-309 (as LayoutMatrix.lean); `copied`: the copy made by the `!` of line 303. -/
def readFile (p : LayoutMatrix.Platform) (al : Alloc) (copied : Bool) (fs : LayoutMatrix.Fs) (name : List UInt8) : M BitMatrix Bool := fun m =>
  if name = [] then .ok false m
  else if fs.readable name = false then .ok false m
  else match fs.files name with
    | none => .ok false m
    | some content =>
      match LayoutMatrix.decodeHash p al content with
      | .ub => .ub
      | .throw e => .throw e m
      | .ok d => if notMatrix copied d then .ok false m else .ok true (LayoutMatrix.assignMoveL m d).1

/-- `Rle::CalcCompressionCoeffitient(const LayoutMatrix&)`, RunLengthEncoding.cpp:108-114; `copied`, `copied2`: the copies made
by the `!` of line 112 and by that of `Rle::Encode`. -/
def coeffMatrix (rnd : ℚ → ℚ) (mem : Grants) (copied copied2 : Bool) (m : BitMatrix) : Res Dbl :=
  if notMatrix copied m then .ok (.fin 0)
  else do
    let s ← BitMatrix.serialize m
    let e ← rleEncode mem copied2 m
    pure (Dbl.div rnd (rnd (s.length : ℕ)) (rnd (e.length : ℕ)))

end Verif.EncodeMemory
