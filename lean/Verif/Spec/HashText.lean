import Verif.Spec.Base64Decode
import Verif.Spec.Rle
import Verif.Spec.Msk

/-!
Specification for C70: what an arbitrary text means to `DecodeHash`.
-/

namespace Verif.Spec.HashText
open Verif.Spec.Msk (bytes)

/-- the text is framed by the two marker lines, and its last eight characters before the end line are the checksum of the
`body` before them -/
def Framed (h body : List UInt8) : Prop :=
  body ≠ [] ∧ h = bytes "---------BEGIN_MATRIX---------\r\n" ++ body ++ checksumText body ++ bytes "\r\n---------END_MATRIX---------"

/-- line breaks do not count -/
def noBreaks (e : List UInt8) : List UInt8 := e.filter fun c => c ≠ 10 ∧ c ≠ 13

/-- `e` is read as a Base64 text of the bytes `d` -/
def Reads (e d : List UInt8) : Prop := e ≠ [] ∧ DecodeOutcome e (.ok d)

/-- `e` is read beyond its end: digits only, and the last group is not complete -/
def Overruns (e : List UInt8) : Prop := DecodeOutcome e .ub

/-- the text carries the bytes `D` -/
def Carries (h D : List UInt8) : Prop := ∃ body, Framed h body ∧ Reads (noBreaks body) D

/-- the last 62 bytes of `D` contain the word `__PARAMETERS__` (anywhere), and `__SIZE__` with 24 characters behind it in its
place; `rest` are the 16 bytes behind that, `payload` is what is before the 62 -/
def SizeSection (D payload szText rest : List UInt8) : Prop :=
  ∃ head : List UInt8, head.length = 14 ∧ szText.length = 24 ∧ rest.length = 16 ∧
    D = payload ++ (head ++ bytes "__SIZE__" ++ szText ++ rest) ∧
    bytes "__PARAMETERS__" <:+: head ++ bytes "__SIZE__" ++ szText ++ rest

/-- … and then `__ENCODE_TYPE__` with one byte behind it -/
def Sections (D payload szText : List UInt8) (flag : UInt8) : Prop :=
  SizeSection D payload szText (bytes "__ENCODE_TYPE__" ++ [flag])

/-- bit `k` of the number in a size field of sixteen bytes, least significant first: the second eight bytes are laid over
the first eight; if `char` is signed, a byte from 0x80 on sets all higher bits as well -/
def SizeBit (signed : Bool) (s : List UInt8) (k : Nat) : Prop :=
  ∃ i < 16, 8 * (i % 8) ≤ k ∧
    ((k < 8 * (i % 8) + 8 ∧ (s.getD i 0).toNat.testBit (k - 8 * (i % 8)) = true) ∨
      (8 * (i % 8) + 8 ≤ k ∧ signed = true ∧ 128 ≤ (s.getD i 0).toNat))

/-- the size text announces `r` rows (high half) and `c` columns (low half) -/
def Size (signed : Bool) (szText : List UInt8) (r c : Nat) : Prop :=
  ∃ s, Reads szText s ∧ s.length = 16 ∧ r < 2 ^ 32 ∧ c < 2 ^ 32 ∧
    ∀ k < 32, (c.testBit k = true ↔ SizeBit signed s k) ∧ (r.testBit k = true ↔ SizeBit signed s (k + 32))

/-- a run-length code of an `r × c` matrix (bit 1 of the flag is set) -/
def IsCode (signed : Bool) (h : List UInt8) (r c : Nat) (code : List UInt8) : Prop :=
  ∃ D payload szText flag, Carries h D ∧ Sections D payload szText flag ∧ Size signed szText r c ∧
    flag.toNat.testBit 1 = true ∧ Reads payload code

/-- raw contents of the length announced (bit 1 of the flag is not set) -/
def IsRaw (signed : Bool) (h : List UInt8) (r c : Nat) (payload : List UInt8) : Prop :=
  ∃ D szText flag, Carries h D ∧ Sections D payload szText flag ∧ Size signed szText r c ∧
    flag.toNat.testBit 1 = false ∧ payload.length = r * c % 2 ^ 32 ∧ (r + 7) / 8 * ((c + 7) / 8) ≤ payload.length

/-- the three ways to read beyond an end: in the armored body, in the code inside it, in raw contents whose length agrees with
`r * c` only because the product wraps around -/
inductive IsOverrun (signed : Bool) (h : List UInt8) : Prop
  | body (body : List UInt8) (h1 : Framed h body) (h2 : Overruns (noBreaks body))
  | code (D payload szText : List UInt8) (flag : UInt8) (r c : Nat) (h1 : Carries h D) (h2 : Sections D payload szText flag)
      (h3 : Size signed szText r c) (h4 : flag.toNat.testBit 1 = true) (h5 : Overruns payload)
  | raw (D payload szText : List UInt8) (flag : UInt8) (r c : Nat) (h1 : Carries h D) (h2 : Sections D payload szText flag)
      (h3 : Size signed szText r c) (h4 : flag.toNat.testBit 1 = false) (h5 : payload.length = r * c % 2 ^ 32)
      (h6 : payload.length < (r + 7) / 8 * ((c + 7) / 8))

end Verif.Spec.HashText
