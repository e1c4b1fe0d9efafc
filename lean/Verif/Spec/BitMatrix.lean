import Verif.Base

/-!
Independent specification of `BitMatrix` as a user sees it: a *grid*, i.e. two dimensions and a function
from coordinates to bits.  `hollow` marks an object that was moved from: it still reports its dimensions
but has no contents.  Nothing here mentions bytes, packing or loops, except that `SetByte` addresses
groups of eight columns (that is its API).
-/

namespace Verif.Spec

structure Grid where
  rows : Nat
  cols : Nat
  bit : Nat → Nat → Bool
  hollow : Bool

/-- all-zero grid -/
def Grid.zero (r c : Nat) : Grid := ⟨r, c, fun _ _ => false, false⟩

/-- API calls on a family of matrix variables, numbered by `Nat`. -/
inductive Op where
  /-- `x = BitMatrix(r, c)` (fresh object) -/
  | new (x r c : Nat)
  /-- `x = y` -/
  | copy (x y : Nat)
  /-- `x = std::move(y)` -/
  | move (x y : Nat)
  /-- `x = y ^ z` -/
  | xor (x y z : Nat)
  | set (x i j : Nat) (v : Bool)
  | setByte (x i jb : Nat) (b : UInt8)
  | setRange (x i0 j0 i1 j1 : Nat) (v : Bool)
  | zeros (x : Nat)
  | ones (x : Nat)
  /-- `Randm()`: `engine seed k` is the k-th output of the random engine, `now` the seed used -/
  | randm (x : Nat) (engine : Nat → Nat → Nat) (now : Nat)
  | resize (x r c : Nat)
  | get (x i j : Nat)
  | size (x : Nat)
  /-- `!x` -/
  | isBad (x : Nat)

/-- What the caller observes from one call. -/
inductive Obs where
  | done
  | bit (b : Bool)
  | size (r c : Nat)
  | exn (e : Exc)
  | undefined
deriving DecidableEq, Repr

/-- all size arguments fit in a `size_t` -/
def Op.fits : Op → Prop
  | .new _ r c => r < 2 ^ 64 ∧ c < 2 ^ 64
  | .resize _ r c => r < 2 ^ 64 ∧ c < 2 ^ 64
  | _ => True

abbrev Store := Nat → Grid

def upd {α : Type} (s : Nat → α) (x : Nat) (v : α) : Nat → α := fun k => if k = x then v else s k

/-- Meaning of one call: observation and new store. -/
def step (s : Store) : Op → Obs × Store
  | .new x r c => (.done, upd s x (Grid.zero r c))
  | .copy x y => (.done, upd s x (s y))
  | .move x y => (.done, upd (upd s x (s y)) y { s y with hollow := true })
  | .xor x y z =>
    if (s y).rows ≠ (s z).rows ∨ (s y).cols ≠ (s z).cols then (.exn .invalidArgument, s)
    else if (s y).rows = 0 ∨ (s y).cols = 0 then (.exn .runtimeError, s)
    else if (s y).hollow then (.done, upd s x (Grid.zero (s y).rows (s y).cols))
    else if (s z).hollow then (.undefined, s)
    else (.done, upd s x ⟨(s y).rows, (s y).cols, fun i j => (s y).bit i j != (s z).bit i j, false⟩)
  | .set x i j v =>
    if i < (s x).rows ∧ j < (s x).cols then
      if (s x).hollow then (.undefined, s)
      else (.done, upd s x { s x with
        bit := fun i' j' => if i' = i ∧ j' = j then v else (s x).bit i' j' })
    else (.exn .runtimeError, s)
  | .setByte x i jb b =>
    if (s x).hollow ∨ (s x).rows ≤ i then (.exn .invalidArgument, s)
    else if ((s x).cols + 7) / 8 < jb then (.exn .invalidArgument, s)
    else if jb = ((s x).cols + 7) / 8 then (.undefined, s)
    else (.done, upd s x { s x with
      bit := fun i' j' => if i' = i ∧ j' / 8 = jb then b.toNat.testBit (7 - j' % 8)
        else (s x).bit i' j' })
  | .setRange x i0 j0 i1 j1 v =>
    if i1 < i0 ∨ (s x).rows < i1 ∨ j1 < j0 ∨ (s x).cols < j1 then (.exn .runtimeError, s)
    else if (s x).hollow ∨ i1 = (s x).rows ∨ (j1 = (s x).cols ∧ (s x).cols % 8 = 0) then (.undefined, s)
    else (.done, upd s x { s x with
      bit := fun i j => if i0 ≤ i ∧ i ≤ i1 ∧ j0 ≤ j ∧ j ≤ j1 then v else (s x).bit i j })
  | .zeros x => (.done, upd s x { s x with bit := fun _ _ => false })
  | .ones x =>
    if (s x).rows = 0 ∨ (s x).cols = 0 then (.exn .runtimeError, s)
    else if (s x).hollow then (.undefined, s)
    else (.done, upd s x { s x with bit := fun _ _ => true })
  | .randm x engine now =>
    if (s x).hollow ∧ 0 < (s x).rows ∧ 0 < (s x).cols then (.undefined, s)
    else (.done, upd s x { s x with
      bit := fun i j => decide (engine now (i * (s x).cols + j) % 2 = 0) })
  | .resize x r c =>
    if r = 0 ∨ c = 0 then (.exn .runtimeError, s)
    else (.done, upd s x (Grid.zero r c))
  | .get x i j =>
    if i < (s x).rows ∧ j < (s x).cols then
      if (s x).hollow then (.undefined, s) else (.bit ((s x).bit i j), s)
    else (.exn .runtimeError, s)
  | .size x => (.size (s x).rows (s x).cols, s)
  | .isBad x => (.bit ((s x).hollow || (s x).rows == 0 || (s x).cols == 0), s)

/-- Observations of a history of calls; the caller survives exceptions, undefined behaviour ends it. -/
def trace (s : Store) : List Op → List Obs
  | [] => []
  | op :: ops =>
    match step s op with
    | (.undefined, _) => [.undefined]
    | (o, s') => o :: trace s' ops

end Verif.Spec
