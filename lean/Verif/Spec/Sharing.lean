import Verif.Model.Sharing

/-! Specification vocabulary for C93. -/

namespace Verif.Sharing
open Verif

/-- what `*h` is -/
def seen (w : World) (h : Nat) : Option BitMatrix := (w.ptrs h).map w.matrix

/-- what `*i.GetMatrix()` is -/
def shown (w : World) (i : Nat) : Option BitMatrix := (w.gens i).map fun o => w.matrix o.addr

/-- the call is made in `w` and returns or throws an exception that the client catches, leaving `w'` -/
def Goes (rnd : ℚ → ℚ) (w : World) (c : Call) (w' : World) : Prop :=
  call rnd w c = some (.ok () w') ∨ ∃ e, call rnd w c = some (.throw e w')

/-- the calls are made one after the other -/
inductive Calls (rnd : ℚ → ℚ) : World → List Call → World → Prop
  | none {w} : Calls rnd w [] w
  | next {w c w' cs w''} : Goes rnd w c w' → Calls rnd w' cs w'' → Calls rnd w (c :: cs) w''

/-- the call starts or ends the life of `i` or assigns to it -/
def Call.renews (i : Nat) : Call → Prop
  | .create k => k = i
  | .copy _ k => k = i
  | .destroy k => k = i
  | _ => False

/-- the call assigns to the pointer variable `h` -/
def Call.points (h : Nat) : Call → Prop
  | .get _ k => k = h
  | _ => False

/-- the call copies the generator `i` or hands out its matrix -/
def Call.spreads (i : Nat) : Call → Prop
  | .copy k _ => k = i
  | .get k _ => k = i
  | _ => False

/-- the call is a member function of generator `i` -/
def Call.uses (i : Nat) : Call → Prop
  | .init k .. => k = i
  | .setLayers k _ => k = i
  | .process k .. => k = i
  | _ => False

/-- the call changes `*h` through the pointer variable `h` -/
def Call.writes (h : Nat) : Call → Prop
  | .write k _ => k = h
  | _ => False

end Verif.Sharing
