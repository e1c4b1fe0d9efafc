import Verif.Model.LayoutMatrix

/-!
Specification for C64: a directory of matrix files as a map from names to matrices.  Matrices are compared by
size and bits elsewhere; here they are the values a client stored.
-/

namespace Verif.Spec.FileHistory

/-- what clients do with numbered matrix objects and files.  `assign` stands for any change of an object by other
calls; `lost` is how many bytes at the end of the written text never reach the disk (crash, full disk). -/
inductive Op
  | assign (o : Nat) (m : BitMatrix)
  | flush (o : Nat) (name : List UInt8) (lost : Nat)
  | read (o : Nat) (name : List UInt8)

/-- what the client sees of a call -/
inductive Obs
  | done
  | returned (r : Bool)
  | threw (e : Exc)
deriving DecidableEq

/-- a file as seen by clients -/
inductive Entry
  | absent
  | damaged
  | holds (m : BitMatrix)

/-- objects and directory -/
structure World where
  objs : Nat → BitMatrix
  disk : List UInt8 → Entry

/-- replace one value of a function -/
def upd {α β : Type} [DecidableEq α] (f : α → β) (a : α) (b : β) : α → β := fun x => if x = a then b else f x

/-- One call.  `canRead`, `canWrite` say which names can be opened. -/
inductive Step (canRead canWrite : List UInt8 → Bool) : World → Op → Obs → World → Prop
  /-- an object gets a new value -/
  | assign (w : World) (o : Nat) (m : BitMatrix) : Step canRead canWrite w (.assign o m) .done { w with objs := upd w.objs o m }
  /-- files that cannot be opened: false, nothing happens -/
  | flushClosed (w : World) (o : Nat) (name : List UInt8) (lost : Nat) : (name = [] ∨ canWrite name = false) →
      Step canRead canWrite w (.flush o name lost) (.returned false) w
  /-- a complete write: the file holds the matrix -/
  | flushed (w : World) (o : Nat) (name : List UInt8) : name ≠ [] → canWrite name = true →
      (w.objs o).isize ≠ 0 → (w.objs o).jsize ≠ 0 →
      Step canRead canWrite w (.flush o name 0) (.returned true) { w with disk := upd w.disk name (.holds (w.objs o)) }
  /-- a torn write: the call reports success, the file is damaged -/
  | torn (w : World) (o : Nat) (name : List UInt8) (lost : Nat) : name ≠ [] → canWrite name = true → 0 < lost →
      (w.objs o).isize ≠ 0 → (w.objs o).jsize ≠ 0 →
      Step canRead canWrite w (.flush o name lost) (.returned true) { w with disk := upd w.disk name .damaged }
  /-- no text for the matrix: the call throws, the file is damaged -/
  | refused (w : World) (o : Nat) (name : List UInt8) (lost : Nat) (e : Exc) : name ≠ [] → canWrite name = true →
      (if (w.objs o).isize = 0 ∨ (w.objs o).jsize = 0 then e = .invalidArgument else e = .runtimeError) →
      Step canRead canWrite w (.flush o name lost) (.threw e) { w with disk := upd w.disk name .damaged }
  /-- reading what cannot be opened: false, nothing happens -/
  | readClosed (w : World) (o : Nat) (name : List UInt8) : (name = [] ∨ canRead name = false ∨ w.disk name = .absent) →
      Step canRead canWrite w (.read o name) (.returned false) w
  /-- reading a damaged file: the call throws, nothing happens -/
  | readDamaged (w : World) (o : Nat) (name : List UInt8) : name ≠ [] → canRead name = true → w.disk name = .damaged →
      Step canRead canWrite w (.read o name) (.threw .invalidArgument) w
  /-- reading a file that holds a matrix: the object becomes that matrix -/
  | readHolds (w : World) (o : Nat) (name : List UInt8) (m : BitMatrix) : name ≠ [] → canRead name = true →
      w.disk name = .holds m → Step canRead canWrite w (.read o name) (.returned true) { w with objs := upd w.objs o m }

/-- a sequence of calls with what the client sees -/
inductive Steps (canRead canWrite : List UInt8 → Bool) : World → List (Op × Obs) → World → Prop
  | nil (w : World) : Steps canRead canWrite w [] w
  | cons {w w1 w2 : World} {op : Op} {ob : Obs} {h : List (Op × Obs)} : Step canRead canWrite w op ob w1 →
      Steps canRead canWrite w1 h w2 → Steps canRead canWrite w ((op, ob) :: h) w2

end Verif.Spec.FileHistory
