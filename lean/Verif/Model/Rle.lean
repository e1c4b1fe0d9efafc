import Verif.Model.BitMatrixRatio

/-!
Model of `src/Common/Impl/RunLengthEncoding/RunLengthEncoding.cpp` (all functions).
`LayoutMatrix` adds no data members to `BitMatrix`, so it is modelled by the same structure; its
`operator!` (Include/LayoutMatrix.h:225-226) copies the base object and applies `BitMatrix::operator!`.
-/

namespace Verif.Rle
open ByteHandler BitMatrix

/-- Locals of the two encoders: output, `currBitValue` / `curr_value`, `key` (`uint8_t`). -/
structure EncSt where
  out : List UInt8
  cur : Bool
  key : UInt8
deriving DecidableEq, Repr

/-- `ByteHandler::SetBit(key, g_lastBitPos, curr); encoded += key;`, RunLengthEncoding.cpp:55-56, 62-63,
68-69, 138-139, 145-146, 152-153. -/
def pushKey : M EncSt Unit := fun s =>
  match setBit s.key 7 s.cur with
  | .ok k => .ok () { s with out := s.out ++ [k], key := k }
  | .throw e => .throw e s
  | .ub => .ub

/-- Loop body of both encoders for the bit `b`, RunLengthEncoding.cpp:50-65 and 133-148. -/
def encStep (b : Bool) : M EncSt Unit := do
  let s ← M.get
  if s.cur = b then M.put { s with key := s.key + 1 }
  else do
    pushKey
    M.modify fun s => { s with key := 1, cur := !s.cur }
  let s ← M.get
  if s.key = 127 then do
    pushKey
    M.modify fun s => { s with key := 0 }
  else pure ()

/-- run `encStep` on the outcome of a bit read -/
def encRead (r : Res Bool) : M EncSt Unit := do
  let b ← M.lift r
  encStep b

/-- `Rle::Encode(const LayoutMatrix&)`, RunLengthEncoding.cpp:117-156. -/
def encode (m : BitMatrix) : Res (List UInt8) :=
  if opNot m then .ok []
  else do
    let v ← BitMatrix.get m 0 0
    match (do
        M.loop 0 m.isize fun i => M.loop 0 m.jsize fun j => encRead (BitMatrix.get m i j)
        pushKey : M EncSt Unit) ⟨[], v, 0⟩ with
    | .ok _ s => .ok s.out
    | .throw e _ => .throw e
    | .ub => .ub

/-- `Rle::ByteEncode`, RunLengthEncoding.cpp:37-73 (`Str[0]` of an empty view is UB; `j` runs 7..0). -/
def byteEncode (str : List UInt8) : Res (List UInt8) := do
  let b0 ← Res.idx str 0
  let v ← getBit b0 7
  match (do
      M.loop 0 str.length fun i => M.loop 0 8 fun k =>
        encRead (do let b ← Res.idx str i; getBit b (7 - k))
      pushKey : M EncSt Unit) ⟨[], v, 0⟩ with
  | .ok _ s => .ok s.out
  | .throw e _ => .throw e
  | .ub => .ub

/-- `Rle::Encode(std::string_view)`, RunLengthEncoding.cpp:21-26: a stub. -/
def encodeStr (_ : List UInt8) : Res (List UInt8) := .ok []

/-- `Rle::Decode`, RunLengthEncoding.cpp:29-34: a stub. -/
def decodeStr (_ : List UInt8) : Res (List UInt8) := .ok []

/-- One character of `Rle::ByteDecode`, RunLengthEncoding.cpp:88-102: `byte` is computed and dropped,
`decodedStr` is never written.  The state is `decodedStr`. -/
def byteDecodeChar (c : UInt8) : M (List UInt8) Unit := do
  let value ← M.lift (getBit c 7)
  let counter ← M.lift (setBit c 7 false)
  M.loop 0 counter.toNat fun _ => do
    let _ ← M.lift (setBit 0 7 value)
    pure ()

/-- the `for` over the characters of `Str` -/
def forChars {σ : Type} (body : UInt8 → M σ Unit) : List UInt8 → M σ Unit
  | [] => pure ()
  | c :: cs => do body c; forChars body cs

/-- `Rle::ByteDecode`, RunLengthEncoding.cpp:76-106. -/
def byteDecode (str : List UInt8) : Res (List UInt8) :=
  if str = [] then .ok []
  else Out.toRes (forChars byteDecodeChar str [])

/-- Locals of `DecodeMatrix`: `matrix`, `j`, `k`. -/
structure DecSt where
  m : BitMatrix
  j : Nat
  k : Nat
deriving DecidableEq, Repr

/-- Body of the inner `while`, RunLengthEncoding.cpp:181-187. -/
def decBody (value : Bool) : M DecSt Unit := fun s =>
  match BitMatrix.set s.k s.j value s.m with
  | .ub => .ub
  | .throw e m' => .throw e { s with m := m' }
  | .ok _ m' =>
    if s.j + 1 = m'.jsize then .ok () ⟨m', 0, s.k + 1⟩
    else .ok () ⟨m', s.j + 1, s.k⟩

/-- One character of `DecodeMatrix` with its `try … catch (...)`, RunLengthEncoding.cpp:173-195.
`while (tmp != 0) { …; tmp--; }` runs `tmp` times. -/
def decChar (c : UInt8) : M DecSt Unit :=
  M.tryCatch (do
    let value ← M.lift (getBit c 7)
    let tmp ← M.lift (setBit c 7 false)
    M.loop 0 tmp.toNat fun _ => decBody value)
    (fun _ => pure ())

/-- `Rle::DecodeMatrix`, RunLengthEncoding.cpp:159-198. -/
def decodeMatrix (al : Alloc) (str : List UInt8) (r c : UInt32) : Res BitMatrix :=
  if str = [] then .ok BitMatrix.empty
  else
    match forChars decChar str ⟨BitMatrix.new al r.toNat c.toNat, 0, 0⟩ with
    | .ok _ s => .ok s.m
    | .throw e _ => .throw e
    | .ub => .ub

/-- `Rle::CalcCompressionCoeffitient(std::string_view, bool)`, RunLengthEncoding.cpp:8-18. -/
def coeffStr (rnd : ℚ → ℚ) (str : List UInt8) (byteInterpretation : Bool) : Res Dbl :=
  if str = [] then .ok (.fin 0)
  else do
    let e ← if byteInterpretation then byteEncode str else encodeStr str
    pure (Dbl.div rnd (rnd (str.length : ℕ)) (rnd (e.length : ℕ)))

/-- `Rle::CalcCompressionCoeffitient(const LayoutMatrix&)`, RunLengthEncoding.cpp:108-114. -/
def coeffMatrix (rnd : ℚ → ℚ) (m : BitMatrix) : Res Dbl :=
  if opNot m then .ok (.fin 0)
  else do
    let s ← BitMatrix.serialize m
    let e ← encode m
    pure (Dbl.div rnd (rnd (s.length : ℕ)) (rnd (e.length : ℕ)))

end Verif.Rle
