import Verif.Model.MskReader

/-!
Vocabulary for C84: file names as texts.  `String` is Lean's type of Unicode texts; its bytes are its UTF-8 form.
-/

namespace Verif.Spec.Names
open Verif

/-- a text as a wide string: one `wchar_t` (32 bits on the platforms at hand) per code point -/
def wide (s : String) : List Nat := s.toList.map Char.toNat

/-- the UTF-8 form of a text: the name a file called so has in a directory -/
def utf8 (s : String) : List UInt8 := s.toByteArray.data.toList

/-- every character is below 128 -/
def Ascii (s : String) : Prop := ∀ c ∈ s.toList, c.toNat < 128

/-- `std::wstring_convert<std::codecvt_utf8<wchar_t>>` does what its name says, on wide strings that are texts -/
def Converts (env : Msk.Env) : Prop := ∀ s, env.utf8 (wide s) = some (utf8 s)

/-- the bytes `b` read as one character each (Latin-1) -/
def latin1 (b : List UInt8) : String := String.ofList (b.map fun x => Char.ofNat x.toNat)

end Verif.Spec.Names
