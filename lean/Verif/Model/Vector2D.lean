import Verif.Base

/-!
Model of `src/Common/Impl/Vector2D/Vector2D.cpp` / `src/Common/Include/Vector2D.h`
(`template class Vector2D<T>`, instantiated for `uint8_t` and `Fragment`).
`std::vector<std::vector<T>>` is `List (List α)`; copy/move constructors and assignments
(Vector2D.cpp:21-52) copy or transfer the list (a moved-from `std::vector` is empty, as libstdc++ and
libc++ implement it), so they need no function of their own.
-/

namespace Verif

/-- `Vector2D<T>::data`, Include/Vector2D.h. -/
abbrev V2 (α : Type) := List (List α)

/-- Allocation behaviour of `Vector2D::Resize(r,c)`: `none` = every allocation succeeds, `some 0` = the
outer `data.resize(r)` throws, `some (k+1)` = `data[k].resize(c)` throws (`bad_alloc` or `length_error`).
An `Alloc` says which of these happens for each requested shape. -/
abbrev Alloc := Nat → Nat → Option Nat

/-- Every allocation succeeds. -/
def Alloc.ok : Alloc := fun _ _ => none

namespace V2

variable {α : Type}

/-- `Vector2D<T>::Resize`, Vector2D.cpp:55-67: `clear`, `resize(RowCnt)`, then each row.
`dflt` is the value-initialised element.  On an allocation failure the rows completed so far stay. -/
def resize (dflt : α) (al : Alloc) (r c : Nat) : M (V2 α) Unit := fun _ =>
  match al r c with
  | none => .ok () (List.replicate r (List.replicate c dflt))
  | some 0 => .throw .badAlloc []
  | some (k + 1) =>
    if k < r then
      .throw .badAlloc (List.replicate k (List.replicate c dflt) ++ List.replicate (r - k) [])
    else .ok () (List.replicate r (List.replicate c dflt))

/-- `Vector2D<T>::IsIndexValid`, Vector2D.cpp:95-103. -/
def isIndexValid (n : Nat) : Bool := !(n == 0 || decide (5000 < n))

/-- `Vector2D<T>::Vector2D(RowCnt, ColCnt)`, Vector2D.cpp:10-18. -/
def new (dflt : α) (al : Alloc) (r c : Nat) : Out (V2 α) Unit :=
  if !isIndexValid r || !isIndexValid c then .ok () []
  else resize dflt al r c []

/-- `Vector2D<T>::At(Row, Col)`, Vector2D.cpp:70-92 (both overloads). -/
def at' (d : V2 α) (row col : Nat) : Res α :=
  if d.length ≤ row then .throw .invalidArgument
  else do
    let rw ← Res.idx d row
    if rw.length ≤ col then .throw .invalidArgument
    else Res.idx rw col

/-- `operator[](i)[j]` (read), Include/Vector2D.h: unchecked. -/
def read (d : V2 α) (i j : Nat) : Res α := do
  let row ← Res.idx d i
  Res.idx row j

/-- `v[i][j] = x` through the proxies, Include/Vector2D.h: unchecked. -/
def write (d : V2 α) (i j : Nat) (x : α) : Res (V2 α) :=
  match d[i]? with
  | none => .ub
  | some row => if j < row.length then .ok (d.set i (row.set j x)) else .ub

/-- `Vector2D<T>::RowCount`, Vector2D.cpp:106-112. -/
def rowCount (d : V2 α) : Nat := d.length

/-- `Vector2D<T>::ColCount`, Vector2D.cpp:115-122: `data[0].size()`, UB without rows. -/
def colCount (d : V2 α) : Res Nat :=
  match d with
  | [] => .ub
  | row :: _ => .ok row.length

/-- `Vector2D<T>::CheckParameters`, Vector2D.cpp:142-155. -/
def checkParameters (d : V2 α) : Bool :=
  match d with
  | [] => false
  | row0 :: _ => d.all fun row => !(row.length == 0 || row0.length != row.length)

/-- `Vector2D<T>::operator!`, Vector2D.cpp:125-130. -/
def opNot (d : V2 α) : Bool := !checkParameters d

/-- `Vector2D<T>::Reset`, Vector2D.cpp:133-139. -/
def reset (_ : V2 α) : V2 α := []

end V2
end Verif
