import Verif.Model.Crc32

/-!
Model of `src/Common/Impl/Base64/Base64.cpp` and `src/Common/Include/Base64.h`.

Strings are lists of bytes.  Masks and shifts act on the byte value: with a signed `char` the sign
extension is removed by the masks (`& 0xFC`, …), so the model is the same on both kinds of platform.
-/

namespace Verif.Base64

/-- character code of an ASCII literal -/
def ch (c : Char) : UInt8 := UInt8.ofNat c.toNat

/-- `base64ClassicDictionary` / `base64UrlDictionary`, Base64.cpp:14-28. -/
def dictionary (isUrl : Bool) : List UInt8 :=
  (("ABCDEFGHIJKLMNOPQRSTUVWXYZ" ++ "abcdefghijklmnopqrstuvwxyz" ++ "0123456789" ++
    (if isUrl then "-_" else "+/")).toList).map ch

/-- `InGetSymbPosition`, Base64.cpp:73-86. -/
def symbPosition (s : UInt8) : Res Nat :=
  if ch 'A' ≤ s ∧ s ≤ ch 'Z' then .ok (s.toNat - (ch 'A').toNat)
  else if ch 'a' ≤ s ∧ s ≤ ch 'z' then
    .ok (s.toNat - (ch 'a').toNat + ((ch 'Z').toNat - (ch 'A').toNat) + 1)
  else if ch '0' ≤ s ∧ s ≤ ch '9' then
    .ok (s.toNat - (ch '0').toNat + ((ch 'Z').toNat - (ch 'A').toNat) +
      ((ch 'z').toNat - (ch 'a').toNat) + 2)
  else if s = ch '+' ∨ s = ch '-' then .ok 62
  else if s = ch '/' ∨ s = ch '_' then .ok 63
  else .throw .runtimeError

/-- Loop of `InBase64Encode`, Base64.cpp:103-125, on the bytes from position `i` on (three per round). -/
def encodeLoop (isUrl : Bool) : List UInt8 → Res (List UInt8)
  | [] => .ok []
  | [a] => do
    let c0 ← Res.idx (dictionary isUrl) ((a.toNat &&& 0xFC) >>> 2)
    let c1 ← Res.idx (dictionary isUrl) ((a.toNat &&& 0x03) <<< 4)
    let t := if isUrl then ch '.' else ch '='
    .ok [c0, c1, t, t]
  | [a, b] => do
    let c0 ← Res.idx (dictionary isUrl) ((a.toNat &&& 0xFC) >>> 2)
    let c1 ← Res.idx (dictionary isUrl) (((a.toNat &&& 0x03) <<< 4) ||| ((b.toNat &&& 0xF0) >>> 4))
    let c2 ← Res.idx (dictionary isUrl) ((b.toNat &&& 0x0F) <<< 2)
    let t := if isUrl then ch '.' else ch '='
    .ok [c0, c1, c2, t]
  | a :: b :: c :: rest => do
    let c0 ← Res.idx (dictionary isUrl) ((a.toNat &&& 0xFC) >>> 2)
    let c1 ← Res.idx (dictionary isUrl) (((a.toNat &&& 0x03) <<< 4) ||| ((b.toNat &&& 0xF0) >>> 4))
    let c2 ← Res.idx (dictionary isUrl) (((b.toNat &&& 0x0F) <<< 2) ||| ((c.toNat &&& 0xC0) >>> 6))
    let c3 ← Res.idx (dictionary isUrl) (c.toNat &&& 0x3F)
    let r ← encodeLoop isUrl rest
    .ok (c0 :: c1 :: c2 :: c3 :: r)

/-- `InBase64Encode`, Base64.cpp:88-127. -/
def encode (buf : List UInt8) (isUrl : Bool) : Res (List UInt8) :=
  if buf = [] then .throw .invalidArgument else encodeLoop isUrl buf

/-- `c != '=' && c != '.'` -/
def notPad (c : UInt8) : Bool := c != ch '=' && c != ch '.'

/-- Loop of `InBase64StandardDecode`, Base64.cpp:139-157, on the characters from position `i` on;
`EncodedStr[i+k]` beyond the end is UB (`std::string_view::operator[]`).  `decodedStr` is as long as the
input and `j` never exceeds `3*(i/4)+2`, so its writes are in bounds. -/
def decodeLoop : List UInt8 → Res (List UInt8)
  | [] => .ok []
  | [e0] => do
    let _ ← symbPosition e0
    .ub
  | [e0, e1] => do
    let _ ← symbPosition e0
    let _ ← symbPosition e1
    .ub
  | [e0, e1, e2] => do
    let p0 ← symbPosition e0
    let p1 ← symbPosition e1
    let b0 := UInt8.ofNat (p0 <<< 2) ||| UInt8.ofNat (p1 >>> 4)
    if notPad e2 then do
      let _ ← symbPosition e2
      .ub
    else .ok [b0]
  | e0 :: e1 :: e2 :: e3 :: rest => do
    let p0 ← symbPosition e0
    let p1 ← symbPosition e1
    let b0 := UInt8.ofNat (p0 <<< 2) ||| UInt8.ofNat (p1 >>> 4)
    if notPad e2 then do
      let p2 ← symbPosition e2
      let b1 := UInt8.ofNat ((p1 &&& 0x0F) <<< 4) ||| UInt8.ofNat ((p2 &&& 0x3C) >>> 2)
      if notPad e3 then do
        let p3 ← symbPosition e3
        let b2 := UInt8.ofNat ((p2 &&& 0x03) <<< 6) ||| UInt8.ofNat (p3 &&& 0x3F)
        let r ← decodeLoop rest
        .ok (b0 :: b1 :: b2 :: r)
      else .ok [b0, b1]
    else .ok [b0]

/-- `InBase64StandardDecode`, Base64.cpp:130-160. -/
def standardDecode (s : List UInt8) : Res (List UInt8) :=
  if s = [] then .throw .invalidArgument else decodeLoop s

/-- `InBase64DecodeWithSeparators`, Base64.cpp:163-171: erase LF, then CR, then decode. -/
def decodeWithSeparators (s : List UInt8) : Res (List UInt8) :=
  standardDecode ((s.filter (· != 10)).filter (· != 13))

/-- `"\r\n"`, Base64.cpp:45. -/
def endline : List UInt8 := [13, 10]

/-- Loop of `InBase64EncodeWithSeparator`, Base64.cpp:188-193. -/
def splitLoop (sep : List UInt8) (len : Nat) (h : 0 < len) (v : List UInt8) : List UInt8 :=
  if _hl : len < v.length then v.take len ++ sep ++ splitLoop sep len h (v.drop len) else v
termination_by v.length
decreasing_by simp; omega

/-- `InBase64EncodeWithSeparator`, Base64.cpp:174-198. -/
def encodeWithSeparator (buf sep : List UInt8) (len : Nat) : Res (List UInt8) :=
  if h : sep.length = 0 ∨ len = 0 then .throw .invalidArgument
  else do
    let e ← encode buf false
    .ok (splitLoop sep len (by omega) e)

/-- `InBase64EncodePem`, Base64.cpp:200-206 (lines of 64). -/
def encodePem (s : List UInt8) : Res (List UInt8) := encodeWithSeparator s endline 64

/-- `InBase64EncodeMime`, Base64.cpp:209-215 (lines of 76). -/
def encodeMime (s : List UInt8) : Res (List UInt8) := encodeWithSeparator s endline 76

/-- Object representation of a `uint32_t` on a little-endian machine. -/
def le32 (n : Nat) : List UInt8 :=
  [UInt8.ofNat n, UInt8.ofNat (n / 256), UInt8.ofNat (n / 65536), UInt8.ofNat (n / 16777216)]

/-- `InRadix64Encode`, Base64.cpp:219-232.  `DataSz` is `uint32_t`: the length is reduced modulo 2^32. -/
def radix64Encode (s : List UInt8) : Res (List UInt8) :=
  if s = [] then .ok []
  else do
    let e ← encodeMime s
    let hash ← Crc32.calcHash (some e) (e.length % 2 ^ 32)
    if hash = 0 then .throw .runtimeError
    else do
      let _ ← encode (le32 hash) false
      let h ← encode (le32 hash) false
      .ok (e ++ h)

/-- `InRadix64Decode`, Base64.cpp:235-250. -/
def radix64Decode (s : List UInt8) : Res (List UInt8) :=
  if s = [] then .ok []
  else if s.length ≤ 8 then .throw .invalidArgument
  else do
    let hashStr := s.drop (s.length - 8)
    let body := s.take (s.length - 8)
    let h ← Crc32.calcHash (some body) (body.length % 2 ^ 32)
    let calced ← encode (le32 h) false
    if calced ≠ hashStr then .throw .runtimeError
    else decodeWithSeparators body

/-- `enum class EncodeType`, Include/Base64.h:21-28. -/
inductive EncodeType where
  | standard | url | radix64 | mime | pem
deriving DecidableEq, Repr

/-- `Base64::Base64Encode`, Base64.cpp:255-269. -/
def base64Encode (s : List UInt8) : EncodeType → Res (List UInt8)
  | .standard => encode s false
  | .url => encode s true
  | .radix64 => radix64Encode s
  | .mime => encodeMime s
  | .pem => encodePem s

/-- `Base64::Base64Decode`, Base64.cpp:272-286. -/
def base64Decode (s : List UInt8) : EncodeType → Res (List UInt8)
  | .standard => standardDecode s
  | .url => standardDecode s
  | .radix64 => radix64Decode s
  | .mime => decodeWithSeparators s
  | .pem => decodeWithSeparators s

end Verif.Base64
