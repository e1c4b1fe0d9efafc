import Verif.Model.GdsiiReader

/-! Specification vocabulary for C63: the layouts GDSII readers make. -/

namespace Verif.Spec.Gdsii
open Verif

/-- the layouts that any number of calls of `Read`, on any readers and any files, can make of an empty one, whatever
the calls return -/
inductive Loaded : LayoutData → Prop
  | empty {d : LayoutData} : d.libraries = [] → Loaded d
  | read {env : Gds.Env} {next : Nat} {null : Bool} {d d' : LayoutData} {r r' : Gds.Reader} {heap heap' : Elements} {b : Bool} : Loaded d →
      Gds.read env next null ⟨r, d, heap⟩ = .ok b ⟨r', d', heap'⟩ → Loaded d'

end Verif.Spec.Gdsii
