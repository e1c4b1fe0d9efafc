import Verif.Model.Concurrent
import Verif.Spec.FileHistory

/-!
Specification for C81: calls that run at the same time.
-/

namespace Verif.Spec.Concurrent
open Verif.Concurrent Verif.LayoutMatrix Verif.Spec.FileHistory

/-- the call has `name` open for writing -/
def WritesTo : Job → List UInt8 → Prop
  | .writing _ n _ _, name => n = name
  | _, _ => False

/-- the call has `name` open for reading -/
def ReadsFrom : Job → List UInt8 → Prop
  | .reading _ n _, name => n = name
  | _, _ => False

/-- the call has not begun -/
def Waiting (t : Job) : Prop := ∃ m name, t = .flush m name ∨ t = .read m name

/-- the object of a call -/
def objOf : Job → BitMatrix
  | .flush m _ => m
  | .writing m _ _ _ => m
  | .read m _ => m
  | .reading m _ _ => m
  | .returned _ m => m
  | .threw _ m => m
  | .undefined => BitMatrix.empty

/-- the call has ended; the client sees `ob`, and the object is `m` -/
inductive Ended : Job → Obs → BitMatrix → Prop
  | returned (b : Bool) (m : BitMatrix) : Ended (.returned b m) (.returned b) m
  | threw (e : Exc) (m : BitMatrix) : Ended (.threw e m) (.threw e) m

/-- call number `i`, which has not begun, as an operation of C64 (on object number `i`) -/
def CallOf (i : Nat) (t : Job) (op : Op) : Prop :=
  match t with
  | .flush _ name => ∃ lost, op = .flush i name lost
  | .read _ name => op = .read i name
  | _ => False

/-- Call `k` may go on: it is not about to open a file that another one is writing, nor to empty one that another one reads. -/
def MayGo (w : System) (k : Nat) : Prop :=
  match w.jobs k with
  | .flush _ name => ∀ i, i ≠ k → ¬ WritesTo (w.jobs i) name ∧ ¬ ReadsFrom (w.jobs i) name
  | .read _ name => ∀ i, i ≠ k → ¬ WritesTo (w.jobs i) name
  | _ => True

/-- a schedule in which no call on a file overlaps with a flush of that file (as file locks would ensure) -/
def Exclusive (p : Platform) : System → List (Nat × Nat) → Prop
  | _, [] => True
  | w, (k, n) :: s => MayGo w k ∧ Exclusive p (step p w k n) s

/-- the object an operation of C64 is called on -/
def objectOf : Op → Nat
  | .assign o _ => o
  | .flush o _ _ => o
  | .read o _ => o

/-- call `i` never finds the disk full -/
def NeverFull (i : Nat) (s : List (Nat × Nat)) : Prop := ∀ n, (i, n) ∈ s → n ≠ 0

/-- a flush was complete -/
def Complete (op : Op) : Prop := ∀ o name lost, op = .flush o name lost → lost = 0

/-- each character of `g` is the one that some text of `T` has in its place, or a zero byte -/
def MadeOf (T : List UInt8 → Prop) (g : List UInt8) : Prop :=
  ∀ (i : Nat) (b : UInt8), g[i]? = some b → b = 0 ∨ ∃ t, T t ∧ t[i]? = some b

/-- What has become of `m.ReadFile(name)`: it has not begun, is under way, could not open the file, or has decoded characters `g`
with property `G` and does what `DecodeHash` says about them. -/
inductive ReadSaw (p : Platform) (G : List UInt8 → Prop) (name : List UInt8) (m : BitMatrix) : Job → Prop
  | waiting : ReadSaw p G name m (.read m name)
  | reading (g : List UInt8) : ReadSaw p G name m (.reading m name g)
  | closed : ReadSaw p G name m (.returned false m)
  | loaded (g : List UInt8) (d : BitMatrix) : G g → decodeHash p Alloc.ok g = .ok d → BitMatrix.opNot d = false →
      ReadSaw p G name m (.returned true d)
  | hollow (g : List UInt8) (d : BitMatrix) : G g → decodeHash p Alloc.ok g = .ok d → BitMatrix.opNot d = true →
      ReadSaw p G name m (.returned false m)
  | threw (g : List UInt8) (e : Exc) : G g → decodeHash p Alloc.ok g = .throw e → ReadSaw p G name m (.threw e m)
  | undefined (g : List UInt8) : G g → decodeHash p Alloc.ok g = .ub → ReadSaw p G name m .undefined

end Verif.Spec.Concurrent
