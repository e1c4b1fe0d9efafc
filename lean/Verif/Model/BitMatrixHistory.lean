import Verif.Model.BitMatrix
import Verif.Spec.BitMatrix

/-!
Driver: a program that holds `BitMatrix` variables and performs API calls on them, catching every
exception.  It only dispatches to the modelled member functions of `BitMatrix.cpp`.
-/

namespace Verif.BitMatrix
open Verif.Spec (Op Obs upd)

abbrev CStore := Nat → BitMatrix

/-- turn the outcome of a member call on variable `x` into an observation and the new store -/
def observe (s : CStore) (x : Nat) : Out BitMatrix Unit → Obs × CStore
  | .ok _ m => (.done, upd s x m)
  | .throw e m => (.exn e, upd s x m)
  | .ub => (.undefined, s)

/-- One call, dispatched to the model of the corresponding member function (BitMatrix.cpp:18-391). -/
def cstep (al : Alloc) (s : CStore) : Op → Obs × CStore
  | .new x r c => (.done, upd s x (new al r c))
  | .copy x y => observe s x (assign (s y) (s x))
  | .move x y => (.done, upd (upd s x (moveAssign (s y)).1) y (moveAssign (s y)).2)
  | .xor x y z =>
    match xor al (s y) (s z) with
    | .ok m => (.done, upd s x m)
    | .throw e => (.exn e, s)
    | .ub => (.undefined, s)
  | .set x i j v => observe s x (set i j v (s x))
  | .setByte x i jb b => observe s x (setByte i jb b (s x))
  | .setRange x i0 j0 i1 j1 v => observe s x (setRange i0 j0 i1 j1 v (s x))
  | .zeros x => observe s x (zeros (s x))
  | .ones x => observe s x (ones (s x))
  | .randm x engine now => observe s x (randm engine now (s x))
  | .resize x r c => observe s x (resize al r c (s x))
  | .get x i j =>
    match get (s x) i j with
    | .ok b => (.bit b, s)
    | .throw e => (.exn e, s)
    | .ub => (.undefined, s)
  | .size x => (.size (s x).isize (s x).jsize, s)
  | .isBad x => (.bit (opNot (s x)), s)

/-- Observations of a history, same conventions as `Spec.trace`. -/
def ctrace (al : Alloc) (s : CStore) : List Op → List Obs
  | [] => []
  | op :: ops =>
    match cstep al s op with
    | (.undefined, _) => [.undefined]
    | (o, s') => o :: ctrace al s' ops

end Verif.BitMatrix
