import Verif.Model.ReaderLife
import Verif.Spec.Msk

/-! Specification vocabulary for C75: what a history of calls says about the pointers. -/

namespace Verif.Spec.ReaderLife
open Verif.Msk Verif.Msk.Life

/-- the pointers `GetReader` returned, in order -/
def obtained : List (Call × Answer) → List Nat
  | [] => []
  | (.get _ _, .pointer (some p)) :: h => p :: obtained h
  | _ :: h => obtained h

/-- the pointers given to `FreeReader`, in order -/
def released : List (Call × Answer) → List Nat
  | [] => []
  | (.free (some p), _) :: h => p :: released h
  | _ :: h => released h

/-- obtained and not yet released -/
def Usable (h : List (Call × Answer)) (p : Nat) : Prop := p ∈ obtained h ∧ p ∉ released h

/-- the file is one the library reads: existing, name ending in a word character and `.msk` in any case, text beginning
with VERSION -/
def Supported (env : Env) (name : List Nat) : Prop :=
  Spec.Msk.MskName (narrow name) ∧ ∃ content, env.fs (narrow name) = some content ∧ Spec.Msk.bytes "VERSION" <+: content

end Verif.Spec.ReaderLife
